import Verif.Props.Live
import Verif.Conformance.Harness

/-! # Concrete cases for C80 -/

namespace Mp4
open Conformance

/-- A `free` box of 9 bytes and one of 8 bytes. -/
def file80 : List Byte := [0, 0, 0, 9, 0x66, 0x72, 0x65, 0x65, 7] ++ [0, 0, 0, 8, 0x66, 0x72, 0x65, 0x65]

/-- The second box extends to the end of the file. -/
def file80e : List Byte := [0, 0, 0, 9, 0x66, 0x72, 0x65, 0x65, 7] ++ [0, 0, 0, 0, 0x66, 0x72, 0x65, 0x65]

def sr80 (d : List Byte) : SimpleReader := { file := true, env := fun _ => junkEnv, data := d }

/-- How a run ends: the offsets and `extendToEof` of the boxes, or the kind of the error. -/
inductive Verdict where
  | accepted (boxes : List (Nat × Bool))
  | exception
  | undefined
  deriving DecidableEq

def verdict (r : Option (Run (List Tree))) : Option Verdict :=
  match r with
  | none => none
  | some ⟨vs, .ok _⟩ => some (.accepted (vs.map fun h => (h.offset, h.extendToEof)))
  | some ⟨_, .error (.ub _)⟩ => some .undefined
  | some ⟨_, .error _⟩ => some .exception

/-- The file as it is: accepted (`C80_accepts`). -/
example : verdict (LiveReader.read ⟨sr80 file80, 17, fun _ => true⟩) = some (.accepted [(0, false), (9, false)]) := by decide +kernel
/-- A byte that cannot be read, in a payload and in a header (`C80_unreadable`). -/
example : verdict (LiveReader.read ⟨sr80 file80, 17, fun p => p != 8⟩) = some .undefined := by decide +kernel
example : verdict (LiveReader.read ⟨sr80 file80, 17, fun p => p != 12⟩) = some .undefined := by decide +kernel
/-- Cut after the constructor: inside a header, inside a payload, between boxes (`C80_shrunk`). -/
example : verdict (LiveReader.read ⟨sr80 (file80.take 12), 17, fun _ => true⟩) = some .exception := by decide +kernel
example : verdict (LiveReader.read ⟨sr80 (file80.take 8), 17, fun _ => true⟩) = some .undefined := by decide +kernel
example : verdict (LiveReader.read ⟨sr80 (file80.take 9), 17, fun _ => true⟩) = some .exception := by decide +kernel
/-- Extended after the constructor: the new box is not seen (`C80_grown`). -/
example : verdict (LiveReader.read ⟨sr80 (file80 ++ file80), 17, fun _ => true⟩) = some (.accepted [(0, false), (9, false)]) := by decide +kernel
/-- With a box that extends to the end of the file: accepted before, an exception afterwards. -/
example : verdict (SimpleReader.read (sr80 file80e)) = some (.accepted [(0, false), (9, true)]) := by decide +kernel
example : verdict (LiveReader.read ⟨sr80 (file80e ++ [1, 2]), 17, fun _ => true⟩) = some .exception := by decide +kernel

end Mp4
