import Verif.Props.Again
import Verif.Props.MemoryExamples

/-! # C76 on concrete files -/

namespace Mp4
open Mem
namespace MemoryExamples

/-- How the calls from these positions end: `none` returns, `some` is what is thrown. -/
def calls (sr : SimpleReader) (ps : List Nat) : Option (List (Option Err) × List Nat) :=
  match sr.readsM (sr.data.length + 2) ps {} with
  | some (.ok rs, s) =>
    match SimpleReader.destroyM (sr.data.length + 2) s with
    | some (.ok (), s') => some (rs.map fun r => match r with | .ok _ => none | .error e => some e, alive s')
    | _ => none
  | _ => none

/-- `esds` with a descriptor of unknown tag at the end of the file: one byte too many is counted. -/
def overcounted : SimpleReader where
  file := true
  env := fun _ => Conformance.junkEnv
  data := [0, 0, 0, 14, 0x65, 0x73, 0x64, 0x73, 0, 0, 0, 0, 7, 0]

/-- The second call finds the stream at its end. -/
example : calls nested [0, 25] = some ([none, some (.exc "read_box_header(): stream has not enough data (1)")], []) := by decide +kernel

/-- Four calls that throw, each leaving a header behind. -/
example : (calls corrupt [0, 8, 16, 3]).map (fun r => (r.1.length, r.2)) = some (4, [6, 10, 11, 12]) := by decide +kernel

/-- What `read` returns and the position it leaves the stream at. -/
def ending (sr : SimpleReader) : Option (Nat × Nat) :=
  match sr.readFrom 0 with
  | some ⟨_, .ok (ts, pos)⟩ => some (ts.length, pos)
  | _ => none

/-- The hypotheses of `C76_second_read` hold, with the stream at its end and behind it. -/
example : nested.data.length = 25 ∧ ending nested = some (1, 25) := by decide +kernel
example : overcounted.data.length = 14 ∧ ending overcounted = some (1, 15) := by decide +kernel

/-- Behind the end of a file stream the second call is undefined behaviour. -/
example : calls overcounted [0, 15] = some ([none, some (.ub "copy_n past the end of the stream")], []) := by decide +kernel

end MemoryExamples

end Mp4
