import Verif.Props.Held
import Verif.Props.CasesC

/-! # C78: concrete cases -/

namespace Mp4

/-- The objects that the examples read into have empty vectors and arbitrary other members. -/
theorem junkEnv_fresh : Conformance.junkEnv.Fresh :=
  ⟨rfl, rfl, rfl, ⟨rfl, rfl⟩, ⟨rfl, rfl⟩, rfl, ⟨rfl, rfl, rfl, rfl⟩⟩

/-- An `avcC` payload of 15 bytes with two parameter sets: it holds 5 elements (two sets of 2 and 1 bytes). -/
example : ∃ m b s', (BoxData.readData Conformance.junkEnv (fourcc "avcC") false .avcC).run caseAvcPayload (bytesBits caseAvcPayload) =
      .ok ((m, b), s') ∧ b.elements ≤ 15 + b.unbacked ∧ b.elements ≤ m / 8 + b.unbacked ∧ b.elements = 5 ∧ b.unbacked = 0 := by
  have hc : (match (BoxData.readData Conformance.junkEnv (fourcc "avcC") false .avcC).run caseAvcPayload (bytesBits caseAvcPayload) with
      | .ok ((_, b), _) => decide (b.elements = 5 ∧ b.unbacked = 0) | .error _ => false) = true := by decide +kernel
  have key := C78_box _ junkEnv_fresh (fourcc "avcC") false .avcC caseAvcPayload
  generalize (BoxData.readData Conformance.junkEnv (fourcc "avcC") false .avcC).run caseAvcPayload (bytesBits caseAvcPayload) = x at *
  match x, hc with
  | .ok ((m, b), s'), hc =>
    obtain ⟨h1, h2⟩ := of_decide_eq_true hc
    obtain ⟨k1, k2⟩ := key m b s' rfl
    exact ⟨m, b, s', rfl, k1, k2, h1, h2⟩

/-- The bound is reached: the file of 19 bytes, a `moov` box with a `free` box of 3 bytes, makes 8 + 8 + 3. -/
example : ∃ vs ts, caseFile.read = some ⟨vs, .ok ts⟩ ∧ Spec.heldList ts ≤ caseFile.data.length + Spec.unbackedList ts ∧
    Spec.unbackedList ts = 0 ∧ Spec.heldList ts = 19 ∧ caseFile.data.length = 19 := by
  have hc : (match caseFile.read with
      | some ⟨_, .ok ts⟩ => decide (Spec.heldList ts = 19 ∧ Spec.unbackedList ts = 0) | _ => false) = true := by decide +kernel
  have key := C78_file caseFile (fun _ => junkEnv_fresh) (by decide +kernel)
  generalize caseFile.read = x at *
  match x, hc with
  | some ⟨vs, .ok ts⟩, hc =>
    obtain ⟨h1, h2⟩ := of_decide_eq_true hc
    exact ⟨vs, ts, rfl, key vs ts rfl, h2, h1, rfl⟩

/-- 16 bytes, four thousand million entries. -/
example : ∃ d : List Byte, d.length = 16 ∧ ∃ vs ts, (⟨false, fun _ => Conformance.junkEnv, stdBoxMap, d⟩ : SimpleReader).read = some ⟨vs, .ok ts⟩ ∧
    Spec.heldList ts ≤ 16 + Spec.unbackedList ts ∧ 4000000000 < Spec.heldList ts := by
  obtain ⟨d, hd, vs, box, path, hr, -, h1, h2⟩ := C78_unbacked false (fun _ => Conformance.junkEnv) 4000000000 (by decide)
  have key := C78_file _ (fun _ => junkEnv_fresh) (by rw [hd]; decide) vs _ hr
  rw [hd] at key
  refine ⟨d, hd, vs, _, hr, key, ?_⟩
  rw [Spec.heldList, Spec.held, h1]
  omega

end Mp4
