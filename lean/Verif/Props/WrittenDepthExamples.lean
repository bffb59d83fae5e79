import Verif.Props.WrittenDepth
import Verif.Props.ReadMovieExamples

/-! # Concrete programs for C93 -/

namespace Mp4
namespace Example

/-- The file of `good` by `SimpleWriter`: two tracks, eight boxes deep. -/
theorem good_depth_simple (env : Nat → Env) : ∃ s w, SimpleWriter.session ⟨[], 0⟩ ftyp 1000 3000 1 good = .ok s ∧
    SimpleWriter.finish s = .ok w ∧ Spec.CheapToRead { file := true, env, data := w.os.data } 8 := by
  obtain ⟨s, es, h1, h2, h3⟩ := C93_simple ⟨[], 0⟩ rfl ftyp 1000 3000 1 good (by decide)
  have he := good_unique es h2
  subst he
  have hs : s = simpleSession good := by unfold simpleSession; rw [h1]
  obtain ⟨w, k1, k2⟩ := h3 (by rw [hs]; exact Nat.lt_of_le_of_lt (m := 2000) (by decide +kernel) (by decide))
    (fun i => by have := events_count i; omega) good_fits
  exact ⟨s, w, h1, k1, k2 true env⟩

/-- The file of `good` by `FaststartWriter`. -/
theorem good_depth_faststart (env : Nat → Env) : ∃ s w, FaststartWriter.session ⟨[], 0⟩ ftyp 1000 3000 1 good = .ok s ∧
    FaststartWriter.finish s = .ok w ∧ Spec.CheapToRead { file := true, env, data := w.os.data } 8 := by
  obtain ⟨s, es, h1, h2, h3⟩ := C93_faststart ⟨[], 0⟩ rfl ftyp 1000 3000 1 good (by decide)
  have he := good_unique es h2
  subst he
  have hs : s = faststartSession good := by unfold faststartSession; rw [h1]
  obtain ⟨w, k1, k2⟩ := h3 (by rw [hs]; exact Nat.lt_of_le_of_lt (m := 2000) (by decide +kernel) (by decide))
    (fun i => by have := events_count i; omega) good_fits
  exact ⟨s, w, h1, k1, k2 true env⟩

/-- Without tracks it is six. -/
theorem empty_depth (env : Nat → Env) : ∃ s w, SimpleWriter.session ⟨[], 0⟩ ftyp 1000 3000 1 [] = .ok s ∧
    SimpleWriter.finish s = .ok w ∧ Spec.CheapToRead { file := true, env, data := w.os.data } 6 := by
  obtain ⟨s, es, h1, h2, h3⟩ := C93_simple ⟨[], 0⟩ rfl ftyp 1000 3000 1 [] (by decide)
  have hs : s = simpleSession [] := by unfold simpleSession; rw [h1]
  have he : es = [] := by cases h2; rfl
  subst he
  obtain ⟨w, k1, k2⟩ := h3 (by rw [hs]; exact Nat.lt_of_le_of_lt (m := 2000) (by decide +kernel) (by decide))
    (fun i => by show 0 < _; decide) (fun a ha => by cases ha)
  exact ⟨s, w, h1, k1, k2 true env⟩

end Example
end Mp4
