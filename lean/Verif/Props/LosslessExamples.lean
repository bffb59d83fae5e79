import Verif.Props.Lossless
import Verif.Conformance.Harness

/-! # C85 on concrete files -/

namespace Mp4
namespace LosslessExample
open Lossless

/-- `free` (header of 16 bytes, three bytes), a container `moov` with an `stss` box of one entry and an
unknown box of two bytes, a data reference `dref` with a `url ` box whose string is terminated, and an `mdat` that extends to the end of the file. -/
def file : List Byte :=
  [0, 0, 0, 1, 0x66, 0x72, 0x65, 0x65, 0, 0, 0, 0, 0, 0, 0, 19, 1, 2, 3] ++
  [0, 0, 0, 38, 0x6d, 0x6f, 0x6f, 0x76] ++
    [0, 0, 0, 20, 0x73, 0x74, 0x73, 0x73, 0, 0, 0, 0, 0, 0, 0, 1, 0, 0, 0, 7] ++
    [0, 0, 0, 10, 0x78, 0x79, 0x7a, 0x77, 8, 9] ++
  [0, 0, 0, 31, 0x64, 0x72, 0x65, 0x66, 0, 0, 0, 0, 0, 0, 0, 1] ++
    [0, 0, 0, 15, 0x75, 0x72, 0x6c, 0x20, 0, 0, 0, 0, 0x61, 0x62, 0] ++
  [0, 0, 0, 0, 0x6d, 0x64, 0x61, 0x74, 5, 6, 7, 8]

def reader (data : List Byte) : SimpleReader := { file := false, env := fun _ => Conformance.junkEnv, data }

/-- The boxes read, when `read` ends normally. -/
def boxes (data : List Byte) : Option (List BoxHeader × List Tree) :=
  match (reader data).read with
  | some ⟨vs, .ok ts⟩ => some (vs, ts)
  | _ => none

/-- `SameSize`, `LengthDetermines` and the condition on `iods`, as a test. -/
def keptBoxB (wave : Bool) (b : Box) (ls : List Tree) : Bool :=
  (b.data.kind.oneForm wave && decide (b.data.kind ≠ .avcC)) ||
  ((match b.header with | none => true | some h => h.size == h.headerSize + b.data.getDataSize + (ls.map Tree.statedSize).sum) &&
    match b.data with
    | .stsz x => x.sample_size == 0
    | .hdlr x => x.pre_defined == 0
    | .audio x => x.under_wave == false
    | .esds _ => false
    | .metaBox _ => false
    | .iods x => x.descriptor_length == 7
    | _ => true)

theorem keptBoxB_ok {wave : Bool} {b : Box} {ls : List Tree} (h : keptBoxB wave b ls = true) :
    (b.data.kind.oneForm wave = true ∧ b.data.kind ≠ .avcC) ∨
      (Tree.SameSize b ls ∧ b.data.LengthDetermines ∧ ∀ x, b.data = .iods x → x.descriptor_length = 7) := by
  rw [keptBoxB, Bool.or_eq_true, Bool.and_eq_true, Bool.and_eq_true] at h
  rcases h with ⟨h1, h2⟩ | ⟨h1, h2⟩
  · exact .inl ⟨h1, of_decide_eq_true h2⟩
  right
  refine ⟨?_, ?_⟩
  · intro hd e
    rw [e] at h1
    exact beq_iff_eq.mp h1
  · cases hd : b.data <;> rw [hd] at h2 <;> simp_all [BoxData.LengthDetermines]

mutual
def keptB (wave : Bool) : Tree → Bool
  | .node b _ ls => keptBoxB wave b ls && keptListB (b.type = fourcc "wave") ls
def keptListB (wave : Bool) : List Tree → Bool
  | [] => true
  | t :: ts => keptB wave t && keptListB wave ts
end

mutual
theorem keptB_ok : ∀ (t : Tree) (wave : Bool), keptB wave t = true → t.Lossless wave
  | .node b p ls, wave, h => by
    rw [keptB, Bool.and_eq_true] at h
    exact ⟨keptBoxB_ok h.1, keptListB_ok ls _ h.2⟩
theorem keptListB_ok : ∀ (ts : List Tree) (wave : Bool), keptListB wave ts = true → Tree.LosslessList wave ts
  | [], wave, h => trivial
  | t :: ts, wave, h => by
    rw [keptListB, Bool.and_eq_true] at h
    exact ⟨keptB_ok t _ h.1, keptListB_ok ts _ h.2⟩
end

theorem read_of_boxes {data : List Byte} {x : List BoxHeader × List Tree} (h : boxes data = some x) : (reader data).read = some ⟨x.1, .ok x.2⟩ := by
  unfold boxes at h
  split at h
  · next e => cases h; exact e
  · cases h

/-- The hypotheses hold for `file`: seven boxes are read, all of them keep their content. -/
theorem file_kept : ((boxes file).map fun x => x.1.length == 7 && keptListB false x.2) = some true := by decide +kernel

example : ∃ vs ts, (reader file).read = some ⟨vs, .ok ts⟩ ∧ vs.length = 7 ∧ Tree.LosslessList false ts ∧ Tree.imageList ts = file ∧
    Tree.writeList ts ⟨[], 0⟩ = (.ok (), ts, ⟨file, file.length⟩) := by
  have h := file_kept
  cases hb : boxes file with
  | none => rw [hb] at h; cases h
  | some x =>
    rw [hb] at h
    simp only [Option.map_some, Option.some.injEq, Bool.and_eq_true, beq_iff_eq] at h
    have hr := read_of_boxes hb
    have hk := keptListB_ok _ _ h.2
    have hl : (reader file).data.length < 2 ^ 63 := by decide +kernel
    exact ⟨x.1, x.2, hr, h.1, hk, C85_image _ hl _ _ hr hk, C85_save _ hl _ _ hr hk⟩

/-- Why boxes are excluded: from two files that differ in a flag of their `meta` box the same boxes are read. -/
def metaFile (flag : Byte) : List Byte := [0, 0, 0, 12, 0x6d, 0x65, 0x74, 0x61, 0, 0, 0, flag]

example : (reader (metaFile 1)).read = (reader (metaFile 2)).read := by rfl

/-- Saving the boxes of the first one gives neither. -/
example : ((boxes (metaFile 1)).map fun x => (Tree.writeList x.2 ⟨[], 0⟩).2.2.data) = some (metaFile 0) := by decide +kernel

/-- `stsz` with a common sample size forgets how many samples there are. -/
def stszFile (n : Byte) : List Byte := [0, 0, 0, 20, 0x73, 0x74, 0x73, 0x7a, 0, 0, 0, 0, 0, 0, 0, 9, 0, 0, 0, n]

example : (reader (stszFile 1)).read = (reader (stszFile 2)).read := by rfl
example : ((boxes (stszFile 1)).map fun x => (Tree.writeList x.2 ⟨[], 0⟩).2.2.data) = some (stszFile 0) := by decide +kernel

/-- A string that the box cuts off: the size the library computes is one more, and saving gives a longer file. -/
def cutUrl : List Byte := [0, 0, 0, 13, 0x75, 0x72, 0x6c, 0x20, 0, 0, 0, 0, 0x61]

example : ((boxes cutUrl).map fun x => (Tree.writeList x.2 ⟨[], 0⟩).2.2.data) = some (cutUrl ++ [0]) := by decide +kernel
example : ((boxes cutUrl).map fun x => keptListB false x.2) = some false := by decide +kernel

end LosslessExample
end Mp4
