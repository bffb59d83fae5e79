import Verif.Lemmas.Lossless

/-!
# C85: what a reader holds is the file - loading and saving reproduces it byte for byte

`Tree.image` (Spec/Lossless.lean) puts together headers, fields and children; `Tree.writeList` is `BoxInfo::write` on every root in turn.
-/

namespace Mp4
open Lossless

/-- **C85.** A header that was read is written as the bytes it was read from. -/
theorem C85_header (d : List Byte) (o : Nat) (h : BoxHeader) (hr : read_box_header ⟨d, o⟩ = .ok h) :
    slice d h.offset h.headerSize = Spec.headerOf h ∧ h.headerBytes = Spec.headerOf h := by
  obtain ⟨h1, h2, -⟩ := header_bytes d o h hr
  exact ⟨h1.trans h2, h2⟩

/-- **C85.** For every file that `read` accepts, and whose boxes keep their content: headers, fields and children of the boxes, put one behind the
other, are the file. -/
theorem C85_image (sr : SimpleReader) (hl : sr.data.length < 2 ^ 63) (vs : List BoxHeader) (ts : List Tree)
    (hr : sr.read = some ⟨vs, .ok ts⟩) (hk : Tree.LosslessList false ts) : Tree.imageList ts = sr.data := by
  have h1 := (C30_tiling sr hl vs ts hr).1
  have h2 := read_loaded sr (by omega) vs ts hr
  rw [(list_image sr (by omega) ts false 0 _ h2 h1 hk (Nat.le_refl _)).1]
  simp [slice]

/-- **C85.** Hence two such files from which the same boxes are read - by any two readers - are the same file. -/
theorem C85_determined (sr sr' : SimpleReader) (hl : sr.data.length < 2 ^ 63) (hl' : sr'.data.length < 2 ^ 63) (vs vs' : List BoxHeader)
    (ts : List Tree) (hr : sr.read = some ⟨vs, .ok ts⟩) (hr' : sr'.read = some ⟨vs', .ok ts⟩) (hk : Tree.LosslessList false ts) : sr.data = sr'.data := by
  rw [← C85_image sr hl vs ts hr hk, C85_image sr' hl' vs' ts hr' hk]

/-- **C85.** Saving the boxes of such a file with `BoxInfo::write` to an empty stream ends normally, changes no box, and produces the file. -/
theorem C85_save (sr : SimpleReader) (hl : sr.data.length < 2 ^ 63) (vs : List BoxHeader) (ts : List Tree)
    (hr : sr.read = some ⟨vs, .ok ts⟩) (hk : Tree.LosslessList false ts) :
    Tree.writeList ts ⟨[], 0⟩ = (.ok (), ts, ⟨sr.data, sr.data.length⟩) := by
  have h1 := (C30_tiling sr hl vs ts hr).1
  have h2 := read_loaded sr (by omega) vs ts hr
  rw [(list_image sr (by omega) ts false 0 _ h2 h1 hk (Nat.le_refl _)).2 ⟨[], 0⟩ rfl]
  have h3 : slice sr.data 0 (sr.data.length - 0) = sr.data := by simp [slice]
  have h4 := OStream.write_end [] sr.data
  rw [List.nil_append] at h4
  rw [h3]
  exact congrArg (fun x => ((Except.ok () : Except Err Unit), ts, x)) h4

/-- **C85.** The boxes of any accepted file, whatever they are, can be saved to any stream: no exception, and no box is changed. -/
theorem C85_savable (sr : SimpleReader) (hl : sr.data.length < 2 ^ 63) (vs : List BoxHeader) (ts : List Tree)
    (hr : sr.read = some ⟨vs, .ok ts⟩) (os : OStream) : ∃ os', Tree.writeList ts os = (.ok (), ts, os') := by
  have h2 := read_loaded sr (by omega) vs ts hr
  exact list_saved sr (by omega) ts false h2 os

end Mp4
