import Verif.Props.ReadMovie
import Verif.Props.MovieExamples
import Verif.Props.ReaderUb

/-! # Concrete programs for C60 -/

namespace Mp4


namespace Example

/-- There are environments: in the theorems about reading they stand for the members the C++ constructors leave uninitialised. -/
theorem env_nonempty : Nonempty (Nat → Env) := ⟨fun _ => default⟩

theorem good_fits : ∀ a ∈ Spec.asked good, Spec.CodecFits a := by
  rw [good_asked]
  intro a ha
  simp only [List.mem_cons, List.not_mem_nil, or_false] at ha
  rcases ha with rfl | rfl <;> trivial

/-- What `good` asked, read back from the file of `SimpleWriter`. -/
theorem good_read_simple (env : Nat → Env) : ∃ s w moov, SimpleWriter.session ⟨[], 0⟩ ftyp 1000 3000 1 good = .ok s ∧ SimpleWriter.finish s = .ok w ∧
    Spec.ReadsMovie { file := true, env, data := w.os.data } ["ftyp", "free", "mdat", "moov"] ftyp
      [1, 2, 3, 4, 5, 10, 11, 12, 13, 6] moov ∧ GoodTables moov ∧
    (Spec.traks moov).map (Spec.trakSamples w.os.data) = [some [[1, 2, 3], [4, 5], [6]], some [[10, 11, 12, 13]]] := by
  obtain ⟨s, es, h1, h2, h3⟩ := C60_simple ⟨[], 0⟩ rfl ftyp 1000 3000 1 good (by decide)
  have he := good_unique es h2
  subst he
  have hs : s = simpleSession good := by unfold simpleSession; rw [h1]
  obtain ⟨w, k1, k2⟩ := h3 (by rw [hs]; exact Nat.lt_of_le_of_lt (m := 2000) (by decide +kernel) (by decide))
    (fun i => by have := events_count i; omega) (fun i x hx => by have := events_size i x hx; omega) good_fits
  obtain ⟨moov, r1, -, -, r2, -, r3⟩ := k2 true env
  exact ⟨s, w, moov, h1, k1, r1, goodTables_of r2, r3 good_disciplined⟩

/-- The same with `FaststartWriter`. -/
theorem good_read_faststart (env : Nat → Env) : ∃ s w moov, FaststartWriter.session ⟨[], 0⟩ ftyp 1000 3000 1 good = .ok s ∧
    FaststartWriter.finish s = .ok w ∧
    Spec.ReadsMovie { file := true, env, data := w.os.data } ["ftyp", "moov", "mdat"] ftyp
      [1, 2, 3, 4, 5, 10, 11, 12, 13, 6] moov ∧ GoodTables moov ∧
    (Spec.traks moov).map (Spec.trakSamples w.os.data) = [some [[1, 2, 3], [4, 5], [6]], some [[10, 11, 12, 13]]] := by
  obtain ⟨s, es, h1, h2, h3⟩ := C60_faststart ⟨[], 0⟩ rfl ftyp 1000 3000 1 good (by decide)
  have he := good_unique es h2
  subst he
  have hs : s = faststartSession good := by unfold faststartSession; rw [h1]
  obtain ⟨w, k1, k2⟩ := h3 (by rw [hs]; exact Nat.lt_of_le_of_lt (m := 2000) (by decide +kernel) (by decide))
    (fun i => by have := events_count i; omega) (fun i x hx => by have := events_size i x hx; omega) good_fits
  obtain ⟨moov, r1, -, -, r2, -, r3⟩ := k2 true env
  exact ⟨s, w, moov, h1, k1, r1, goodTables_of r2, r3 good_disciplined⟩

/-- An access unit: SPS, PPS and one IDR slice. -/
def accessUnit : List (Bool × List Byte) :=
  [(true, [0x67, 0x42, 0xc0, 0x1f, 0x8c, 0x68]), (true, [0x68, 0xce, 0x3c, 0x80]), (false, [0x65, 0xb8, 0x41])]

/-- An H.264 track with this access unit meets the condition on codecs. -/
theorem accessUnit_fits : Spec.CodecFits
    ⟨⟨90000, 3000, 3000, 1, 0, 1⟩, .h264 640 480 ⟨1, 66, 0, 30, [], []⟩, 0, [Spec.annexB accessUnit]⟩ := by
  refine ⟨[accessUnit], rfl, ?_, ?_⟩
  · intro us hus
    simp only [List.mem_cons, List.not_mem_nil, or_false] at hus
    subst hus
    refine ⟨by decide, ?_, ?_⟩
    · intro u hu
      unfold accessUnit at hu
      simp only [List.mem_cons, List.not_mem_nil, or_false] at hu
      rcases hu with rfl | rfl | rfl <;> (unfold Spec.NalOk; decide +kernel)
    · intro u hu
      unfold accessUnit at hu
      cases hu
      decide
  · decide +kernel

end Example
end Mp4
