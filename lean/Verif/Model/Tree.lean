import Verif.Model.Box
import Verif.Model.Header

/-! # `Box` objects and the `BoxInfo` tree (`src/box.cpp`, `src/box_info.cpp`) -/

namespace Mp4

/-- A `Box` object: `m_type`, `m_header` and the fields of its class (include/shiguredo/mp4/box.hpp:28-65). -/
structure Box where
  type : BoxType
  data : BoxData
  header : Option BoxHeader := none

namespace Box

/-- `Box::makeHeader` (src/box.cpp:110-115): the header pointed to afterwards. -/
def theHeader (b : Box) : BoxHeader := b.header.getD { type := b.type }

/-- `Box::getHeaderSize` (src/box.cpp:75-78): the value.  (It also stores the header made; the only caller,
`adjustOffsetAndSize`, then calls `setOffsetAndDataSize`, which does the same.) -/
def getHeaderSize (b : Box) : Nat := b.theHeader.headerSize

/-- `Box::setOffsetAndDataSize` (src/box.cpp:101-104). -/
def setOffsetAndDataSize (b : Box) (offset data_size : Nat) : Box :=
  { b with header := some (b.theHeader.setOffsetAndDataSize offset data_size) }

/-- `Box::write` (src/box.cpp:106-108): how it ended, the object and the stream afterwards.  Every `writeData` override
starts with `bitio::Writer writer(os)`; bits of an unfinished byte are dropped with that object.  Writing through a
null `m_header` is undefined behaviour. -/
def write (b : Box) (os : OStream) : Except Err Nat × Box × OStream :=
  match b.header with
  | none => (.error (.ub "m_header is null"), b, os)
  | some h =>
    let (size, h', os1) := h.write os
    let (res, w) := b.data.writeData.runC (Writer.new os1)
    (res.map (size + ·), { b with header := some h' }, w.os)

end Box

/-- A `BoxInfo` with everything below it: `m_box`, `m_path`, `m_leafs`
(include/shiguredo/mp4/box_info.hpp:26-44).  The code links nodes by pointers; as each `BoxInfo` is attached to exactly one
parent, in its constructor, the structure is a tree. -/
inductive Tree where
  | node (box : Box) (path : List BoxType) (leafs : List Tree)

namespace Tree

def box : Tree → Box
  | .node b _ _ => b
def path : Tree → List BoxType
  | .node _ p _ => p
def leafs : Tree → List Tree
  | .node _ _ l => l

/-- The loop over the leaves in `BoxInfo::adjustOffsetAndSize` (src/box_info.cpp:71-73); `base` is
`offset + header_size + data_size`. -/
def adjustList (adj : Tree → Nat → Option (Nat × Tree)) (base : Nat) : List Tree → Nat → Option (Nat × List Tree)
  | [], leafs_size => some (leafs_size, [])
  | l :: ls, leafs_size =>
    match adj l (u64 (base + leafs_size)) with
    | none => none
    | some (n, l') =>
      match adjustList adj base ls (u64 (leafs_size + n)) with
      | none => none
      | some (m, ls') => some (m, l' :: ls')

/-- `BoxInfo::adjustOffsetAndSize` (src/box_info.cpp:67-81): returned size and tree afterwards.  The first argument
bounds the recursion depth (`none`: deeper); `C12_terminates` shows that the bound used below is never reached. -/
def adjust : Nat → Tree → Nat → Option (Nat × Tree)
  | 0, _, _ => none
  | fuel + 1, .node b p ls, offset =>
    let header_size := b.getHeaderSize
    let data_size := b.data.getDataSize
    match adjustList (adjust fuel) (u64 (offset + header_size + data_size)) ls 0 with
    | none => none
    | some (leafs_size, ls') =>
      let b' := b.setOffsetAndDataSize offset (u64 (data_size + leafs_size))
      if header_size ≠ b'.getHeaderSize then
        match adjust fuel (.node b' p ls') offset with
        | none => none
        | some (_, t) => some (t.box.theHeader.size, t)
      else some (b'.theHeader.size, .node b' p ls')

mutual
/-- Number of levels. -/
def depth : Tree → Nat
  | .node _ _ ls => depthList ls + 1
def depthList : List Tree → Nat
  | [] => 0
  | t :: ts => max t.depth (depthList ts)
end

/-- `BoxInfo::adjustOffsetAndSize` with a recursion depth that always suffices. -/
def adjustOffsetAndSize (t : Tree) (offset : Nat) : Option (Nat × Tree) := adjust (2 * t.depth) t offset

/-- `BoxInfo::getSize` (src/box_info.cpp:48-50, src/box.cpp:94-99). -/
def getSize (t : Tree) : Except Err Nat :=
  match t.box.header with
  | none => .error (.exc "Box::getSize(): header is not set")
  | some h => .ok h.size

mutual
/-- `BoxInfo::write` (src/box_info.cpp:83-89). -/
def write : Tree → OStream → Except Err Unit × Tree × OStream
  | .node b p ls, os =>
    let r := b.write os
    match r.1 with
    | .error e => (.error e, .node r.2.1 p ls, r.2.2)
    | .ok _ =>
      let q := writeList ls r.2.2
      (q.1, .node r.2.1 p q.2.1, q.2.2)
/-- the loop over the leaves (src/box_info.cpp:86-88) -/
def writeList : List Tree → OStream → Except Err Unit × List Tree × OStream
  | [], os => (.ok (), [], os)
  | t :: ts, os =>
    let r := t.write os
    match r.1 with
    | .error e => (.error e, r.2.1 :: ts, r.2.2)
    | .ok _ =>
      let q := writeList ts r.2.2
      (q.1, r.2.1 :: q.2.1, q.2.2)
end

end Tree
end Mp4
