import Verif.Model.Intermediate

/-! # Specification: what a history of calls did to the intermediate file -/

namespace Mp4.Spec

/-- A call that removes the file returned. -/
def Removed (h : List (Act × Outcome)) : Prop :=
  ∃ v, (Act.copyMdatData, Outcome.returned v) ∈ h ∨ (Act.deleteIntermediateFile, Outcome.returned v) ∈ h

/-- A `copyMdatData` got as far as closing the file: it returned, or one of its last two steps failed. -/
def Closed (h : List (Act × Outcome)) : Prop :=
  (∃ v, (Act.copyMdatData, Outcome.returned v) ∈ h) ∨
  (∃ r, (Act.copyMdatData, Outcome.threw "FaststartWriter::copyMdatData(): cannot close the intermediate file" r) ∈ h) ∨
  (∃ r, (Act.copyMdatData, Outcome.threw "FaststartWriter::deleteIntermediateFile(): cannot remove the intermediate file" r) ∈ h)

/-- A `copyMdatData` found the output stream broken. -/
def OutputFailed (h : List (Act × Outcome)) : Prop :=
  ∃ r, (Act.copyMdatData, Outcome.threw "FaststartWriter::copyMdatData(): copying mdat data failed" r) ∈ h

/-- The bytes one call adds to the file: all of them when it returns, as many as its message says when it throws. -/
def addedBy : Act × Outcome → List Byte
  | (.addMdatData d, .returned _) => d
  | (.addMdatData d, .threw _ ret) => d.take ret
  | _ => []

/-- The number of bytes of the call that the caller was told are stored. -/
def countedBy : Act × Outcome → Nat
  | (.addMdatData d, .returned _) => d.length
  | _ => 0

/-- The number of bytes that are stored though the call threw. -/
def lostBy : Act × Outcome → Nat
  | (.addMdatData _, .threw _ ret) => ret
  | _ => 0

/-- The call uses the `FILE`. -/
def usesFile : Act → Bool
  | .addMdatData _ | .tellCurrentMdatOffset | .copyMdatData => true
  | _ => false

/-- A C library and a file system that never fail. -/
def perfect : Libc := ⟨true, true, fun _ => 2 ^ 64, fun _ => true, fun _ => true, fun _ => true, fun _ => true, fun _ => true⟩

end Mp4.Spec
