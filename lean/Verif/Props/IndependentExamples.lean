import Verif.Props.Independent
import Verif.Props.FaststartExamples

/-! # Concrete cases for C91 and C92 -/

namespace Mp4
namespace Example

open Spec (withoutOffsets withoutChunks)

/-- The calls on the second track of `good`. -/
example : Spec.callsOn 1 0 good = [.newTrack ⟨48000, 144000, 3000, 1, 0, 2⟩ (.opus 312 (-80)), .addData 0 0 [10, 11, 12, 13] false,
    .terminateCurrentChunk 0] := rfl

/-- A program with one track only. -/
def only : List Call := Spec.callsOn 1 0 good

/-- What `only` stores. -/
def onlyEvents : List Event := [.sample 0 ⟨0, [10, 11, 12, 13], false⟩, .terminate 0]

theorem only_unique (es : List Event) (h : Spec.Expands [] only es) : es = onlyEvents :=
  step_unique (blk := []) h (fun _ h => h) fun _ h => step_unique h (data_unique fun _ h => h) fun _ h =>
    step_unique h (fun _ h => h) fun _ h => h

/-- C91 applied to the second track of `good`, with a smaller `ftyp` and another time for the second program: all its
hypotheses hold, and there is such a track. -/
theorem good_alone : ∃ s s' w w' moov moov', SimpleWriter.session ⟨[], 0⟩ ftyp 1000 3000 1 good = .ok s ∧
    SimpleWriter.session ⟨[], 0⟩ ftyp 1000 3000 1 only = .ok s' ∧ SimpleWriter.finish s = .ok w ∧ SimpleWriter.finish s' = .ok w' ∧
    w.os.data = Tree.encodeList (Spec.simpleFile ftyp [1, 2, 3, 4, 5, 10, 11, 12, 13, 6] moov) ∧
    w'.os.data = Tree.encodeList (Spec.simpleFile ftyp [10, 11, 12, 13] moov') ∧
    (Spec.traks moov').map withoutOffsets = (((Spec.traks moov).map withoutOffsets)[1]?).toList := by
  obtain ⟨s, s', es, es', h1, h2, h3, h4, h5⟩ := C91_simple ⟨[], 0⟩ ⟨[], 0⟩ rfl rfl ftyp ftyp 1000 1000 3000 3000 1 1 good 1
    (by decide) (by decide)
  have he := good_unique es h2
  have he' := only_unique es' h4
  subst he he'
  have hs : s = simpleSession good := by unfold simpleSession; rw [h1]
  have hs' : s' = simpleSession only := by
    unfold simpleSession
    rw [show SimpleWriter.session ⟨[], 0⟩ ftyp 1000 3000 1 only = .ok s' from h3]
  obtain ⟨w, w', moov, moov', k1, k2, k3, k4, k5⟩ := h5
    (by rw [hs]; exact Nat.lt_of_le_of_lt (m := 2000) (by decide +kernel) (by decide))
    (by rw [hs']; exact Nat.lt_of_le_of_lt (m := 2000) (by decide +kernel) (by decide))
  exact ⟨s, s', w, w', moov, moov', h1, h3, k1, k2, k3, k4, k5⟩

/-- The two programs of the examples for C38 differ in a call that ends a chunk only; one keeps to the rule for callers, the other
does not. -/
example : good.filter (fun c => !Spec.endsChunk c) = bad.filter (fun c => !Spec.endsChunk c) ∧ good ≠ bad := by
  refine ⟨rfl, ?_⟩
  intro h
  have := congrArg List.length h
  exact absurd this (by decide)

/-- C92 applied to them: all its hypotheses hold. -/
theorem good_bad : ∃ s s' w w' moov moov', FaststartWriter.session ⟨[], 0⟩ ftyp 1000 3000 1 good = .ok s ∧
    FaststartWriter.session ⟨[], 0⟩ ftyp 1000 3000 1 bad = .ok s' ∧ FaststartWriter.finish s = .ok w ∧
    FaststartWriter.finish s' = .ok w' ∧
    w.os.data = Tree.encodeList (Spec.faststartFile ftyp [1, 2, 3, 4, 5, 10, 11, 12, 13, 6] moov) ∧
    w'.os.data = Tree.encodeList (Spec.faststartFile ftyp [1, 2, 3, 4, 5, 10, 11, 12, 13, 6] moov') ∧
    withoutChunks moov = withoutChunks moov' := by
  obtain ⟨s, s', es, h1, h2, h3, h4⟩ := C92_faststart ⟨[], 0⟩ rfl ftyp 1000 3000 1 good bad rfl (by decide)
  have he := good_unique es h3
  subst he
  have hs : s = faststartSession good := by unfold faststartSession; rw [h1]
  have hs' : s' = faststartSession bad := by unfold faststartSession; rw [h2]
  obtain ⟨w, w', moov, moov', k1, k2, k3, k4, k5⟩ := h4
    (by rw [hs]; exact Nat.lt_of_le_of_lt (m := 2000) (by decide +kernel) (by decide))
    (by rw [hs']; exact Nat.lt_of_le_of_lt (m := 2000) (by decide +kernel) (by decide))
  exact ⟨s, s', w, w', moov, moov', h1, h2, k1, k2, k3, k4, k5⟩

/-- C92 does not hide everything: the chunk tables of the two differ. -/
example : (faststartSession good).tracks.map (fun t => t.finalize.chunk_infos.map (·.number_of_samples.toNat)) = [[2, 1], [1]] ∧
    (faststartSession bad).tracks.map (fun t => t.finalize.chunk_infos.map (·.number_of_samples.toNat)) = [[3], [1]] := by
  decide +kernel

end Example
end Mp4
