import Verif.Props.Concat
import Verif.Props.HeldExamples

/-! # C86: concrete files -/

namespace Mp4.ConcatExamples

/-- An `mfra` box holding an `mfro` box. -/
def a : List Byte := [0, 0, 0, 24, 0x6d, 0x66, 0x72, 0x61, 0, 0, 0, 16, 0x6d, 0x66, 0x72, 0x6f, 0, 0, 0, 0, 0, 0, 0, 24]
/-- A `free` box with three bytes. -/
def b : List Byte := [0, 0, 0, 11, 0x66, 0x72, 0x65, 0x65, 1, 2, 3]
/-- A `free` box that extends to the end of the file. -/
def c : List Byte := [0, 0, 0, 0, 0x66, 0x72, 0x65, 0x65, 1, 2, 3]
/-- A string with the given bytes. -/
def rd (d : List Byte) : SimpleReader := { file := false, env := fun _ => Conformance.junkEnv, map := stdBoxMap, data := d }

/-- Accepted, with root boxes of these types, and nothing extends to the end of the file. -/
def okWith (d : List Byte) (types : List BoxType) : Bool :=
  match (rd d).read with
  | some ⟨vs, .ok ts⟩ => decide (∀ h ∈ vs, h.extendToEof = false) && decide (ts.map (·.box.type) = types)
  | _ => false

theorem okWith_spec {d : List Byte} {types : List BoxType} (h : okWith d types = true) :
    ∃ vs ts, (rd d).read = some ⟨vs, .ok ts⟩ ∧ (∀ h ∈ vs, h.extendToEof = false) ∧ ts.map (·.box.type) = types := by
  unfold okWith at h
  split at h
  · next vs ts e =>
    rw [Bool.and_eq_true] at h
    exact ⟨vs, ts, e, of_decide_eq_true h.1, of_decide_eq_true h.2⟩
  · cases h

/-- Accepted, with so many root boxes. -/
def okWith' (d : List Byte) (n : Nat) : Bool :=
  match (rd d).read with
  | some ⟨_, .ok ts⟩ => decide (ts.length = n)
  | _ => false

theorem a_read : okWith a [fourcc "mfra"] = true := by decide +kernel
theorem b_read : okWith b [fourcc "free"] = true := by decide +kernel

/-- Both files are accepted, and so is one behind the other (C86_concat). -/
example : ∃ vs ta tb, (rd (a ++ b)).read = some ⟨vs, .ok (ta ++ Tree.movedList 24 tb)⟩ ∧
    ta.map (·.box.type) = [fourcc "mfra"] ∧ tb.map (·.box.type) = [fourcc "free"] := by
  obtain ⟨va, ta, h1, h2, h3⟩ := okWith_spec a_read
  obtain ⟨vb, tb, k1, -, k3⟩ := okWith_spec b_read
  exact ⟨_, ta, tb, C86_concat false (fun _ => Conformance.junkEnv) stdBoxMap a b (by decide) va ta h1 h2 vb (.ok tb) k1, h3, k3⟩

/-- Three files (C86_many). -/
example : ∃ va ta vb tb vs, (rd (a ++ (b ++ (b ++ [])))).read
    = some ⟨vs, .ok (Spec.allBoxes 0 [(a, va, ta), (b, vb, tb), (b, vb, tb)])⟩ := by
  obtain ⟨va, ta, h1, h2, -⟩ := okWith_spec a_read
  obtain ⟨vb, tb, k1, k2, -⟩ := okWith_spec b_read
  obtain ⟨vs, h⟩ := C86_many false stdBoxMap [(a, va, ta), (b, vb, tb), (b, vb, tb)] (fun _ => Conformance.junkEnv)
    (show (a ++ (b ++ (b ++ []))).length < 2 ^ 63 by decide) ⟨h1, h2, k1, k2, k1, k2, trivial⟩
  exact ⟨va, ta, vb, tb, vs, h⟩

/-- A file followed by one that is refused is refused with the same exception (C86_concat). -/
example : ∃ vs e, (rd (a ++ [0, 0, 0, 9, 0x66, 0x72, 0x65, 0x65])).read = some ⟨vs, .error e⟩ := by
  obtain ⟨va, ta, h1, h2, -⟩ := okWith_spec a_read
  obtain ⟨⟨vb, res⟩, k, -⟩ := C28_terminates (rd [0, 0, 0, 9, 0x66, 0x72, 0x65, 0x65]) (by decide)
  cases res with
  | ok tb =>
    have : (match (rd [0, 0, 0, 9, 0x66, 0x72, 0x65, 0x65]).read with | some ⟨_, .ok _⟩ => false | _ => true) = true := by decide +kernel
    rw [k] at this
    cases this
  | error e =>
    exact ⟨_, e, C86_concat false (fun _ => Conformance.junkEnv) stdBoxMap a _ (by decide) va ta h1 h2 vb (.error e) k⟩

/-- Without the hypothesis on `extendToEof` the claim is false: a last box of size 0 takes in what follows. -/
example : okWith' c 1 = true ∧ okWith' (c ++ a) 1 = true := by decide +kernel

/-- The hypotheses of C86_split are met: the cut between the two boxes. -/
example : ∃ vs ta tb, (rd (a ++ b)).read = some ⟨vs, .ok (ta ++ tb)⟩ ∧ tb ≠ [] ∧ Tree.TiledList ta 0 a.length ∧
    (∀ h ∈ Tree.headersList ta, h.extendToEof = false) := by
  obtain ⟨va, ta, h1, h2, -⟩ := okWith_spec a_read
  obtain ⟨vb, tb, k1, -, k3⟩ := okWith_spec b_read
  obtain ⟨t, hv⟩ := C30_tiling (rd a) (by decide) va ta h1
  refine ⟨_, ta, Tree.movedList 24 tb, C86_concat false (fun _ => Conformance.junkEnv) stdBoxMap a b (by decide) va ta h1 h2 vb (.ok tb) k1,
    ?_, t, hv ▸ h2⟩
  cases tb with
  | nil => cases k3
  | cons t ts => rw [Tree.movedList]; exact List.cons_ne_nil _ _

end Mp4.ConcatExamples
