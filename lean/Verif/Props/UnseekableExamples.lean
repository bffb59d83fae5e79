import Verif.Props.Unseekable
import Verif.Props.LiveExamples

/-! # Concrete cases for C94 -/

namespace Mp4

/-- Nothing fails: accepted (`C94_all_work`, `C94_returns`). -/
example : verdict (PosReader.read ⟨sr80 file80, fun _ => true, fun _ => true⟩) = some (.accepted [(0, false), (9, false)]) := by decide +kernel
/-- A call after the last one that is made may fail: three of the constructor and six for each box. -/
example : verdict (PosReader.read ⟨sr80 file80, fun t => decide (t < 15), fun t => decide (t < 15)⟩) = some (.accepted [(0, false), (9, false)]) := by
  decide +kernel
/-- A file that was not opened (`C94_not_seekable`), also when empty. -/
example : verdict (PosReader.read ⟨sr80 file80, fun _ => false, fun _ => true⟩) = some .exception := by decide +kernel
example : verdict (PosReader.read ⟨sr80 [], fun _ => false, fun _ => true⟩) = some .exception := by decide +kernel
/-- The constructor is not told the size (`C94_no_size`): both boxes are read, then it throws. -/
example : ((PosReader.read ⟨sr80 file80, fun _ => true, fun t => t != 1⟩).map fun r => r.visits.map (·.offset)) = some [0, 9] := by decide +kernel
example : verdict (PosReader.read ⟨sr80 file80, fun _ => true, fun t => t != 1⟩) = some .exception := by decide +kernel
/-- The last call fails. -/
example : verdict (PosReader.read ⟨sr80 file80, fun t => t != 14, fun _ => true⟩) = some .exception := by decide +kernel
/-- `read_box_header` is not told the end of the stream, and three bytes are left, or the box extends to the end: undefined, or an exception. -/
example : verdict (PosReader.read ⟨sr80 (file80.take 12), fun _ => true, fun t => t != 11⟩) = some .undefined := by decide +kernel
example : verdict (PosReader.read ⟨sr80 file80e, fun _ => true, fun t => t != 11⟩) = some .exception := by decide +kernel
/-- Not told the end of the stream where it does not matter: the same boxes. -/
example : verdict (PosReader.read ⟨sr80 file80, fun _ => true, fun t => t != 5⟩) = some (.accepted [(0, false), (9, false)]) := by decide +kernel

end Mp4
