import Verif.Props.Memory
import Verif.Conformance.Harness

/-! # C74 on concrete files -/

namespace Mp4
open Mem

namespace MemoryExamples

/-- The addresses of the objects that exist. -/
def alive (s : State) : List Nat := (List.range s.next).filter fun a => (s.cell a).isSome

/-- The number of top-level boxes after `read`, whether it returned, the objects that exist then, and those that exist behind the
destructor. -/
def story (sr : SimpleReader) (fuel : Nat) : Option (Nat × Bool × List Nat × List Nat) :=
  match sr.readM fuel {} with
  | none => none
  | some (r, s) =>
    match SimpleReader.destroyM fuel s with
    | some (.ok (), s') => some (s.boxes.length, r.isOk, alive s, alive s')
    | _ => none

/-- `moov` with two `free` boxes. -/
def nested : SimpleReader where
  file := true
  env := fun _ => Conformance.junkEnv
  data := [0, 0, 0, 25, 0x6d, 0x6f, 0x6f, 0x76, 0, 0, 0, 8, 0x66, 0x72, 0x65, 0x65, 0, 0, 0, 9, 0x66, 0x72, 0x65, 0x65, 7]

/-- The same with a last box that is larger than the file. -/
def corrupt : SimpleReader where
  file := true
  env := fun _ => Conformance.junkEnv
  data := [0, 0, 0, 25, 0x6d, 0x6f, 0x6f, 0x76, 0, 0, 0, 8, 0x66, 0x72, 0x65, 0x65, 0, 0, 0, 10, 0x66, 0x72, 0x65, 0x65, 7]

/-- `mvhd` without its content: the box exists already when reading fails, and is deleted. -/
def noContent : SimpleReader where
  file := true
  env := fun _ => Conformance.junkEnv
  data := [0, 0, 0, 17, 0x6d, 0x6f, 0x6f, 0x76, 0, 0, 0, 9, 0x6d, 0x76, 0x68, 0x64, 0]

/-- Nine objects (header, box and info for each box); all are deleted. -/
example : story nested 27 = some (1, true, [0, 1, 2, 3, 4, 5, 6, 7, 8], []) := by decide +kernel

/-- The header of the last box, object 6, is never deleted. -/
example : story corrupt 27 = some (1, false, [0, 1, 2, 3, 4, 5, 6], [6]) := by decide +kernel

example : story noContent 19 = some (1, false, [0, 1, 2, 3, 4, 5], []) := by decide +kernel

/-- They are among the files of the theorem. -/
example : ∃ run s, nested.read = some run ∧ nested.readM 27 {} = some (run.res, s) :=
  let ⟨run, s, h1, h2, _⟩ := C74_reader nested (by decide +kernel)
  ⟨run, s, h1, h2⟩

end MemoryExamples
end Mp4
