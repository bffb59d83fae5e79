import Verif.Props.Depth
import Verif.Conformance.Harness

/-! # Examples for C88 -/

namespace Mp4
open Conformance

/-- How `readStack` ends: number of headers read and whether the file was accepted, or `none` when the stack is too small. -/
def stackVerdict (d : List Byte) (room : Nat) : Option (Nat × Bool) :=
  match ({ file := false, env := fun _ => junkEnv, map := stdBoxMap, data := d } : SimpleReader).readStack room with
  | none => none
  | some ⟨vs, .ok _⟩ => some (vs.length, true)
  | some ⟨vs, .error _⟩ => some (vs.length, false)

/-- Two `moov` boxes, one in the other, and a `free` box: two nested calls. -/
example : (List.range 4).map (stackVerdict [0, 0, 0, 16, 0x6d, 0x6f, 0x6f, 0x76, 0, 0, 0, 8, 0x6d, 0x6f, 0x6f, 0x76,
    0, 0, 0, 8, 0x66, 0x72, 0x65, 0x65]) = [none, none, some (3, true), some (3, true)] := by decide +kernel

/-- A refused file of 9 bytes: the one byte behind the header of the `moov` box is taken for the next box, so both calls are needed; the
bound of `C88_enough` is reached. -/
example : (List.range 3).map (stackVerdict [0, 0, 0, 9, 0x6d, 0x6f, 0x6f, 0x76, 7]) = [none, none, some (1, false)] := by decide +kernel

/-- `C88_no_stack_suffices` with a million calls: a file of 8 MB. -/
example (env : Nat → Env) : ∃ d : List Byte, d.length = 8000008 ∧
    ({ file := true, env := env, map := stdBoxMap, data := d } : SimpleReader).readStack 1000000 = none := by
  obtain ⟨d, -, h1, -, h2⟩ := C88_no_stack_suffices 1000000 (by decide) true env
  exact ⟨d, h1 (by decide), h2⟩

end Mp4
