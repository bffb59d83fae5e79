import Verif.Props.MemoryWriter
import Verif.Props.MemoryExamples
import Verif.Props.FaultsExamples
import Verif.Props.FaststartExamples

/-! # C75 on concrete programs -/

namespace Mp4
open Mem

namespace MemoryExamples

/-- A `SimpleWriter` that makes the calls on the device: whether they return, the number of objects then, and the objects behind the
destructor. -/
def simpleStory (dev : Device) (calls : List FaultySimple.Step) : Option (Bool × Nat × List Nat) :=
  match FaultySimple.programM 16 dev ⟨[], 0⟩ Example.ftyp 1000 3000 1 calls {} with
  | none => none
  | some (r, s) =>
    match destroyWriterM 16 s with
    | some (.ok (), s') => some (r.isOk, (alive s).length, alive s')
    | _ => none

/-- The same for a `FaststartWriter`. -/
def faststartStory (dev : Device) (calls : List FaultyFaststart.Step) : Option (Bool × Nat × List Nat) :=
  match (FaultyFaststart.new dev ⟨[], 0⟩ Example.ftyp 1000 3000 1).stepsM 16 calls {} with
  | none => none
  | some (r, s) =>
    match destroyWriterM 16 s with
    | some (.ok (), s') => some (r.isOk, (alive s).length, alive s')
    | _ => none

/-- A whole program with the tracks of `good` (WriterExamples). -/
def simpleCalls : List FaultySimple.Step :=
  [.writeFtypBox, .addMdatData [1, 2, 3], .appendTrakAndUdtaBoxInfo (Example.simpleSession Example.good).tracks,
   .writeFreeBoxAndMdatHeader, .writeMoovBox]

/-- A whole program with the tracks of `good`; `moov` is built several times. -/
def faststartCalls : List FaultyFaststart.Step :=
  [.writeFtypBox, .addMdatData [1, 2, 3], .appendTrakAndUdtaBoxInfo (Example.faststartSession Example.good).tracks,
   .writeMoovBox, .writeMdatHeader]

/-- 162 objects are in `moov`; all are deleted. -/
example : simpleStory (Device.full 10000) simpleCalls = some (true, 162, []) := by decide +kernel

/-- The disk is full while `moov` is written: nothing is left. -/
example : simpleStory (Device.full 1000) simpleCalls = some (false, 162, []) := by decide +kernel

/-- The disk is full while `ftyp` is written: its box, its box info and its header are left. -/
example : simpleStory (Device.full 20) simpleCalls = some (false, 7, [4, 5, 6]) := by decide +kernel

/-- The disk breaks while `free` is written: its three objects are left. -/
example : simpleStory (Device.breaks 30) simpleCalls = some (false, 111, [111, 112, 113]) := by decide +kernel

example : faststartStory (Device.full 10000) faststartCalls = some (true, 162, []) := by decide +kernel
example : faststartStory (Device.full 1000) faststartCalls = some (false, 162, []) := by decide +kernel
example : faststartStory (Device.full 20) faststartCalls = some (false, 3, [0, 1, 2]) := by decide +kernel

/-- The theorem on one of these. -/
example : ∃ r s s', FaultySimple.programM 16 (Device.full 20) ⟨[], 0⟩ Example.ftyp 1000 3000 1 simpleCalls {} = some (r, s) ∧
    destroyWriterM 16 s = some (.ok (), s') :=
  let ⟨r, s, s', h1, h2, _⟩ := C75_simple (Device.full 20) ⟨[], 0⟩ Example.ftyp 1000 3000 1 simpleCalls 16 (Nat.le_refl _)
  ⟨r, s, s', h1, h2⟩

/-- A tree of three boxes, `moov` with `mvhd` and `udta`: its depth, and what `C75_tree` needs. -/
def small : Tree :=
  .node ⟨fourcc "moov", .empty, none⟩ [] [.node ⟨fourcc "mvhd", .mvhd (newMvhd 1 1000 3000 1), none⟩ [] [], .node ⟨fourcc "udta", .empty, none⟩ [] []]

example : 2 * small.depth ≤ 8 := by decide +kernel

/-- Built, measured, deleted: what the steps return and the objects there are. -/
def smallStory : Option (Nat × List Nat × List Nat × List Nat) :=
  match buildM none small {} with
  | some (.ok a, s1) =>
    match adjustM 8 a 0 s1 with
    | some (.ok n, s2) =>
      match deleteInfo 8 a s2 with
      | some (.ok (), s3) => some (n, alive s1, alive s2, alive s3)
      | _ => none
    | _ => none
  | _ => none

/-- Three boxes with their box infos; measuring adds their headers. -/
example : smallStory = some (124, List.range 6, List.range 9, []) := by decide +kernel

end MemoryExamples
end Mp4
