import Verif.Props.Places
import Verif.Props.FaststartExamples

/-! # Concrete programs for C77 -/

namespace Mp4

namespace Example

/-- C77 applied to `good`: all its hypotheses hold; the samples of the two tracks share the ten bytes of `mdat`. -/
theorem good_places : ∃ s w base, SimpleWriter.session ⟨[], 0⟩ ftyp 1000 3000 1 good = .ok s ∧ SimpleWriter.finish s = .ok w ∧
    slice w.os.data base 10 = [1, 2, 3, 4, 5, 10, 11, 12, 13, 6] ∧
    Spec.Partition [[(base, 3), (base + 3, 2), (base + 9, 1)], [(base + 5, 4)]] base 10 := by
  obtain ⟨s, es, h1, h2, h3⟩ := C77_simple ⟨[], 0⟩ rfl ftyp 1000 3000 1 good good_disciplined (by decide)
  have he := good_unique es h2
  subst he
  have hs : s = simpleSession good := by unfold simpleSession; rw [h1]
  obtain ⟨w, moov, base, tracks, k1, k2, k3, k4, k5, k6⟩ := h3
    (by rw [hs, show Tree.totalList (Spec.simpleFile ftyp (Spec.mdat events) (SimpleWriter.moovOf (simpleSession good))) = 1388 by
          decide +kernel]; decide)
    (fun i => by have := events_count i; omega) (fun i x hx => by have := events_size i x hx; omega)
  subst k5
  exact ⟨s, w, base, h1, k1, k3, k6⟩

theorem good_places_faststart : ∃ s w base, FaststartWriter.session ⟨[], 0⟩ ftyp 1000 3000 1 good = .ok s ∧
    FaststartWriter.finish s = .ok w ∧ slice w.os.data base 10 = [1, 2, 3, 4, 5, 10, 11, 12, 13, 6] ∧
    Spec.Partition [[(base, 3), (base + 3, 2), (base + 9, 1)], [(base + 5, 4)]] base 10 := by
  obtain ⟨s, es, h1, h2, h3⟩ := C77_faststart ⟨[], 0⟩ rfl ftyp 1000 3000 1 good good_disciplined (by decide)
  have he := good_unique es h2
  subst he
  have hs : s = faststartSession good := by unfold faststartSession; rw [h1]
  obtain ⟨w, moov, base, tracks, k1, k2, k3, k4, k5, k6⟩ := h3
    (by rw [hs]; exact Nat.lt_of_le_of_lt (m := 2000) (by decide +kernel) (by decide))
    (fun i => by have := events_count i; omega) (fun i x hx => by have := events_size i x hx; omega)
  subst k5
  exact ⟨s, w, base, h1, k1, k3, k6⟩

end Example

/-- **C77** The rule for callers is needed: without it a byte of `mdat` belongs to two samples and another one to none. -/
theorem C77_needs_discipline : ¬ Spec.DisciplinedCalls Example.bad ∧
    ∃ s w moov base tracks, SimpleWriter.session ⟨[], 0⟩ Example.ftyp 1000 3000 1 Example.bad = .ok s ∧ SimpleWriter.finish s = .ok w ∧
      w.os.data = Tree.encodeList (Spec.simpleFile Example.ftyp [1, 2, 3, 4, 5, 10, 11, 12, 13, 6] moov) ∧
      slice w.os.data base 10 = [1, 2, 3, 4, 5, 10, 11, 12, 13, 6] ∧
      (Spec.traks moov).map Spec.trakRanges = tracks.map some ∧
      Spec.Belongs tracks (base + 5) 0 2 ∧ Spec.Belongs tracks (base + 5) 1 0 ∧ ∀ i k, ¬ Spec.Belongs tracks (base + 9) i k := by
  refine ⟨C38_needs_discipline.1, ?_⟩
  obtain ⟨w1, s, es, -, -, -, hses, he1, -, -, hP, hmoov⟩ := simple_any ⟨[], 0⟩ rfl Example.ftyp 1000 3000 1 Example.bad (by decide)
  have he := Example.bad_unique es he1
  subst he
  have hs : s = Example.simpleSession Example.bad := by unfold Example.simpleSession; rw [hses]
  subst hs
  obtain ⟨w, hw, hfile⟩ := SimpleWriter.finish_eq hP (by
    exact Nat.lt_of_le_of_lt (m := 2000) (by decide +kernel) (by decide))
  rw [headBoxes_simpleFile] at hfile
  refine ⟨_, w, _, 40, [[(40, 3), (43, 2), (45, 1)], [(45, 4)]], hses, hw, hfile, ?_, by decide +kernel,
    ⟨_, _, rfl, rfl, by decide, by decide⟩, ⟨_, _, rfl, rfl, by decide, by decide⟩, ?_⟩
  · rw [hfile]
    decide +kernel
  · rintro i k ⟨rs, r, h1, h2, h3, h4⟩
    match i with
    | 0 =>
      cases h1
      match k with
      | 0 => cases h2; revert h4; decide
      | 1 => cases h2; revert h4; decide
      | 2 => cases h2; revert h4; decide
      | k + 3 => cases h2
    | 1 =>
      cases h1
      match k with
      | 0 => cases h2; revert h4; decide
      | k + 1 => cases h2
    | i + 2 => cases h1

end Mp4
