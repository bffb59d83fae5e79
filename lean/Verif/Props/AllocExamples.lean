import Verif.Props.Alloc
import Verif.Props.HeldExamples

/-! # C83: concrete cases -/

namespace Mp4
open Spec

/-- A file of 35 bytes: an `stts` box with one entry and a `free` box of 3 bytes. -/
def allocFile : SimpleReader :=
  ⟨false, fun _ => Conformance.junkEnv, stdBoxMap, [0, 0, 0, 24, 0x73, 0x74, 0x74, 0x73, 0, 0, 0, 0, 0, 0, 0, 1, 0, 0, 0, 2, 0, 0, 0, 5,
  0, 0, 0, 11, 0x66, 0x72, 0x65, 0x65, 1, 2, 3]⟩

/-- An allocator that has memory for `m` elements. -/
def budget (m : Nat) : A.Policy := fun before n => decide (before.sum + n ≤ m)

/-- The file is accepted. -/
theorem allocFile_read : (match allocFile.read with | some ⟨_, .ok ts⟩ => decide (unbackedList ts = 0) | _ => false) = true := by decide +kernel

/-- Two requests are made. -/
theorem allocFile_asks : (match allocFile.readA (fun _ _ => true) with | some (_, log) => decide (log = [1, 3]) | _ => false) = true := by
  decide +kernel

/-- With memory for 35 elements `read` does what it does with unlimited memory. -/
example : ∃ vs ts, allocFile.read = some ⟨vs, .ok ts⟩ ∧ (∃ log, allocFile.readA (budget 35) = some (⟨vs, .ok ts⟩, log)) := by
  have hc := allocFile_read
  have key := C83_enough allocFile (fun _ => junkEnv_fresh) (by decide +kernel)
  generalize allocFile.read = x at *
  match x, hc with
  | some ⟨vs, .ok ts⟩, hc =>
    have hu := of_decide_eq_true hc
    refine ⟨vs, ts, rfl, key vs ts rfl (budget 35) ?_⟩
    intro before n h
    rw [hu, show allocFile.data.length = 35 by decide +kernel] at h
    exact decide_eq_true (by omega)

/-- With memory for three elements it ends with `std::bad_alloc` at the second request, after the two headers. -/
example : (match allocFile.readA (budget 3) with
    | some (⟨[h, i], .error (.exc m)⟩, log) => decide (h.size = 24 ∧ i.size = 11 ∧ m = "std::bad_alloc" ∧ log = [1, 3]) | _ => false) = true := by
  decide +kernel

/-- The hypothesis of `C83_refused` is met by that file, and its second case occurs. -/
example : ∃ run all, allocFile.read = some run ∧ allocFile.readA (fun _ _ => true) = some (run, all) ∧ RefusedAtLast (budget 3) [] [1, 3] := by
  obtain ⟨run, hr, -⟩ := C28_terminates allocFile (by decide +kernel)
  obtain ⟨all, h, -⟩ := C83_refused allocFile run hr
  exact ⟨run, all, hr, h, [1], 3, rfl, ⟨rfl, trivial⟩, rfl⟩

/-- Sixteen bytes that request four thousand million entries. -/
example : ∃ d : List Byte, d.length = 16 ∧ ∃ vs,
    (SimpleReader.mk true (fun _ => Conformance.junkEnv) stdBoxMap d).readA (fun _ _ => true) = some (⟨vs, .error .eof⟩, [4000000000]) :=
  C83_unpaid 4000000000 (by decide) (by decide) true _

end Mp4
