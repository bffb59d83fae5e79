import Verif.Model.Tree

/-! # Construction of `BoxInfo` objects (`src/box_info.cpp:16-31`) -/

namespace Mp4

/-- A `BoxInfo` object in memory: children are pointers, here indices of the list of all objects in the order of their
construction (include/shiguredo/mp4/box_info.hpp:41-43). -/
structure InfoNode where
  box : Box
  path : List BoxType
  leafs : List Nat

/-- All `BoxInfo` objects, in the order of their construction. -/
abbrev InfoHeap := List InfoNode

/-- `AudioSampleEntry::setUnderWave(true)` when the box is an `AudioSampleEntry`
(src/box_info.cpp:20-26, src/box/sample_entry.cpp). -/
def Box.setUnderWave (b : Box) : Box :=
  match b.data with
  | .audio a => { b with data := .audio { a with under_wave := true } }
  | _ => b

/-- `BoxInfo::BoxInfo` (src/box_info.cpp:16-31): the objects afterwards.  A parent that does not exist is a dangling pointer
(undefined behaviour, `none`). -/
def newBoxInfo (heap : InfoHeap) (parent : Option Nat) (box : Box) : Option InfoHeap :=
  match parent with
  | none => some (heap ++ [{ box, path := [] ++ [box.type], leafs := [] }])
  | some i =>
    match heap[i]? with
    | none => none
    | some p =>
      let box := if p.box.type = fourcc "wave" then box.setUnderWave else box
      some (heap.set i { p with leafs := p.leafs ++ [heap.length] } ++ [{ box, path := p.path ++ [box.type], leafs := [] }])

/-- A history of constructor calls, starting from `heap`. -/
def newBoxInfos : InfoHeap → List (Option Nat × Box) → Option InfoHeap
  | heap, [] => some heap
  | heap, (parent, box) :: rest =>
    match newBoxInfo heap parent box with
    | none => none
    | some heap => newBoxInfos heap rest

end Mp4
