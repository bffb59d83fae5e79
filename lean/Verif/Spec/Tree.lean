import Verif.Model.Tree
import Verif.Spec.File
import Verif.Spec.LayoutBox

/-! # What a tree of boxes looks like in a file

`Box`, `Tree` and `BoxHeader` are the object types of the model; nothing here uses the model's algorithms.
-/

namespace Mp4

/-- The payload of a box on disk. -/
def Layout.payload (b : BoxData) : List Byte := toBytes (Layout.box b)

/-- Length of the header of a box with `n` bytes behind the header (ISO/IEC 14496-12 4.2). -/
def Spec.headerSize (n : Nat) : Nat := if n + 8 < 2 ^ 32 then 8 else 16

namespace Tree

mutual
/-- Bytes behind the header: own data and the child boxes. -/
def inner : Tree → Nat
  | .node b _ ls => b.data.getDataSize + totalList ls
/-- Total length of the children. -/
def totalList : List Tree → Nat
  | [] => 0
  | t :: ts => (t.inner + Spec.headerSize t.inner) + totalList ts
end

/-- Length of the whole box. -/
def total (t : Tree) : Nat := t.inner + Spec.headerSize t.inner

mutual
/-- The tree with every box at its place, the first at offset `o`: the children follow the box's own data, each
right behind the one before. -/
def place : Tree → Nat → Tree
  | .node b p ls, o =>
    .node { b with header := some { offset := o, size := (Tree.node b p ls).total,
                                    headerSize := Spec.headerSize (Tree.node b p ls).inner, type := b.type } } p
      (placeList ls (o + Spec.headerSize (Tree.node b p ls).inner + b.data.getDataSize))
def placeList : List Tree → Nat → List Tree
  | [], _ => []
  | t :: ts, o => t.place o :: placeList ts (o + t.total)
end

mutual
/-- The tree on disk. -/
def encode : Tree → List Byte
  | .node b p ls => Spec.boxHeader (Tree.node b p ls).total (BoxType.bytes b.type) ++ Layout.payload b.data ++ encodeList ls
def encodeList : List Tree → List Byte
  | [] => []
  | t :: ts => t.encode ++ encodeList ts
end

mutual
/-- The tree without headers: types, fields, paths and shape. -/
def erase : Tree → Tree
  | .node b p ls => .node { b with header := none } p (eraseList ls)
def eraseList : List Tree → List Tree
  | [] => []
  | t :: ts => t.erase :: eraseList ts
end

mutual
/-- `P` holds for every box of the tree. -/
def All (P : Box → Prop) : Tree → Prop
  | .node b _ ls => P b ∧ AllList P ls
def AllList (P : Box → Prop) : List Tree → Prop
  | [] => True
  | t :: ts => t.All P ∧ AllList P ts
end

end Tree

/-- The box has no header yet, or one made by the library for this box (in any state: offset, size and header size are
arbitrary). -/
def Box.OwnHeader (b : Box) : Prop := ∀ h, b.header = some h → h.type = b.type ∧ h.extendToEof = false

mutual
/-- In a tree whose boxes all have headers: the box starts at `o`, its header is of the length the format prescribes, its size is
header + own data + children, and the children follow each other behind its own data. -/
def Tree.LaidOut : Tree → Nat → Prop
  | .node b _ ls, o => ∃ h, b.header = some h ∧ h.offset = o ∧ h.type = b.type ∧ h.extendToEof = false ∧
      (h.headerSize = 8 ∧ h.size < 2 ^ 32 ∨ h.headerSize = 16 ∧ 2 ^ 32 ≤ h.size - 8) ∧
      ∃ e, LaidOutList ls (o + h.headerSize + b.data.getDataSize) e ∧ o + h.size = e
/-- The boxes follow each other from `o` to `e`. -/
def Tree.LaidOutList : List Tree → Nat → Nat → Prop
  | [], o, e => o = e
  | t :: ts, o, e => t.LaidOut o ∧ ∃ h, t.box.header = some h ∧ LaidOutList ts (o + h.size) e
end

end Mp4
