import Verif.Model.Dump

/-! # The model against the test vectors of the repository

Every case of `test/box_types.cpp:22-2169`: for each, the model does what the test at `test/box_types.cpp:2171-2208` requires of the library — the
bytes are read completely by the class registered for the type, the text is the expected one, and the object read has the expected data size and is written
to the same bytes.  Generated from the test file; these are checks of the model on literals, not proofs of properties. -/

namespace Mp4
namespace Conformance

/-- Arbitrary content of uninitialised members. -/
def junkEnv : Env where
  sbgp := 0x5a5a5a5a
  tfhd := ⟨⟨0x5a, 0x5a, 0x5a, 0x5a⟩, 0x5a5a5a5a, 0x5a5a5a5a, 0x5a5a5a5a, 0x5a5a5a5a, 0x5a5a5a5a, 0x5a5a5a5a⟩
  trun := ⟨⟨0x5a, 0x5a, 0x5a, 0x5a⟩, 0x5a5a5a5a, 0x5a5a5a5a, []⟩
  avcC := ⟨0x5a, 0x5a, 0x5a, 0x5a, 0x5a, 0x5a, 0x5a, [], [], true, 0x5a, 0x5a, 0x5a, 0x5a, 0x5a, 0x5a, []⟩
  audio := ⟨fourcc "mp4a", Vector.replicate 6 0, 0, 0, Vector.replicate 3 0, 0, 0, 0, 0, 0, false, [], false⟩
  url := ⟨⟨0x5a, 0x5a, 0x5a, 0x5a⟩, []⟩
  urn := ⟨⟨0x5a, 0x5a, 0x5a, 0x5a⟩, [], []⟩
  colr := ⟨⟨0x5a, 0x5a, 0x5a, 0x5a⟩, 0x5a5a, 0x5a5a, 0x5a5a, true, 0x5a, [], []⟩
  pssh := ⟨⟨0x5a, 0x5a, 0x5a, 0x5a⟩, Vector.replicate 16 0x5a, [], []⟩
  esds := ⟨0x5a5a, 0x5a5a⟩
  sgpd := ⟨⟨0x5a, 0x5a, 0x5a, 0x5a⟩, ⟨0x5a, 0x5a, 0x5a, 0x5a⟩, 0x5a5a5a5a, 0x5a5a5a5a, [], [], [], []⟩

/-- Read the bytes as the content of a box of type `t`: bits read, text, data size, bits written, bytes written. -/
def readShowWrite (t : BoxType) (bin : List Byte) : Option (Nat × List Byte × Nat × Nat × List Byte) :=
  match stdBoxMap.getBoxInstance t with
  | .unsupported => none
  | .known k t =>
    match (BoxData.readData junkEnv t false k).runC (Reader.new ⟨bin, 0⟩) with
    | .error _ => none
    | .ok ((rbits, d), _) =>
      match d.toStringOnlyData t, d.writeData.runC (Writer.new ⟨[], 0⟩) with
      | .ok text, (.ok wbits, w) => some (rbits, text, d.getDataSize, wbits, w.os.data)
      | _, _ => none

/-- The requirement of the test on a case. -/
def passes (t : BoxType) (bin : List Byte) (text : List Byte) : Prop :=
  readShowWrite t bin = some (bin.length * 8, text, bin.length, bin.length * 8, bin)

instance (t bin text) : Decidable (passes t bin text) := by unfold passes; infer_instance

end Conformance
end Mp4
