import Verif.Model.Reader
import Verif.Spec.Tree
import Verif.Spec.RoundTrip

/-! # What a `SimpleReader` run must look like -/

namespace Mp4

/-- The declared size of the box covers its header and stays inside a file of `len` bytes. -/
def Spec.Fits (len : Nat) (h : BoxHeader) : Prop := h.headerSize ≤ h.size ∧ h.offset + h.size ≤ len

/-- The headers lie inside a file of `len` bytes, from `pos` on, without overlap and in file order. -/
def Spec.InOrder (len : Nat) : Nat → List BoxHeader → Prop
  | _, [] => True
  | pos, h :: hs => pos ≤ h.offset ∧ (h.headerSize = 8 ∨ h.headerSize = 16) ∧ h.offset + h.headerSize ≤ len ∧
      Spec.InOrder len (h.offset + h.headerSize) hs

namespace Tree

mutual
/-- All headers of a tree, parents before children. -/
def headers : Tree → List BoxHeader
  | .node b _ ls => b.header.toList ++ headersList ls
def headersList : List Tree → List BoxHeader
  | [] => []
  | t :: ts => t.headers ++ headersList ts
end

mutual
/-- The box occupies exactly the bytes from `o` to `e`; its children, if it has any, occupy without gaps and overlap the bytes from
some point behind its header up to its own end. -/
def Tiled : Tree → Nat → Nat → Prop
  | .node b _ ls, o, e => ∃ h, b.header = some h ∧ h.offset = o ∧ o + h.size = e ∧ h.headerSize ≤ h.size ∧
      (ls = [] ∨ ∃ s, o + h.headerSize ≤ s ∧ TiledList ls s e)
/-- The boxes follow each other from `s` to `e` without gaps and overlap. -/
def TiledList : List Tree → Nat → Nat → Prop
  | [], s, e => s = e
  | t :: ts, s, e => ∃ m, t.Tiled s m ∧ TiledList ts m e
end

mutual
/-- Every box has a header, and the byte range it declares contains the byte ranges of its children, behind the header. -/
def Nested : Tree → Prop
  | .node b _ ls => ∃ h, b.header = some h ∧ NestedList (h.offset + h.headerSize) (h.offset + h.size) ls
/-- `Nested` trees inside the bytes from `s` to `e`. -/
def NestedList (s e : Nat) : List Tree → Prop
  | [] => True
  | t :: ts => (∃ h, t.box.header = some h ∧ s ≤ h.offset ∧ h.offset + h.size ≤ e) ∧ t.Nested ∧ NestedList s e ts
end

/-- What reading the box back gives for its data: the bytes `writeData` produces are decoded to `data`, in front of
anything (the children), or, for a box without children, at the end of the payload. -/
def DecodesTo (env : Env) (wave : Bool) (b : Box) (isLeaf : Prop) (data : BoxData) : Prop :=
  RoundTrip b.data.writeData (BoxData.readData env b.type wave b.data.kind) data ∨
  isLeaf ∧ RoundTripEnd b.data.writeData (BoxData.readData env b.type wave b.data.kind) data

end Tree

/-- The reader makes objects of class `k` for boxes of type `t`: the class registered for the type, or an opaque box. -/
def SimpleReader.ReadsWith (sr : SimpleReader) (t : BoxType) (k : Kind) : Prop :=
  (∃ d, sr.map.find t = some d ∧ d.factory = k) ∨ sr.map.find t = none ∧ k = .opaq

/-- The type such an object has: boxes of a type that is not registered become `unsu` boxes. -/
def SimpleReader.typeRead (sr : SimpleReader) (t : BoxType) : BoxType :=
  if (sr.map.find t).isSome then t else fourcc "unsu"

namespace Tree

mutual
/-- `t'` is what a reader must report for the tree `t` written at `o`, below a parent with the given path (a `wave` box when
`wave`): the same shape and types (`unsu` for types that are not registered), the data as decoded, the path made of the types above,
and the headers where the boxes were put. -/
def ReadsAs (sr : SimpleReader) (path : List BoxType) (wave : Bool) (o : Nat) : Tree → Tree → Prop
  | .node b p ls, .node b' p' ls' =>
    sr.ReadsWith b.type b.data.kind ∧
    DecodesTo (sr.env o) wave b (ls = []) b'.data ∧ b'.type = sr.typeRead b.type ∧ p' = path ++ [b'.type] ∧
    b'.header = some ⟨o, (Tree.node b p ls).total, Spec.headerSize (Tree.node b p ls).inner, b.type, false⟩ ∧
    ReadsAsList sr p' (b'.type = fourcc "wave") (o + Spec.headerSize (Tree.node b p ls).inner + b.data.getDataSize) ls ls'
def ReadsAsList (sr : SimpleReader) (path : List BoxType) (wave : Bool) (o : Nat) : List Tree → List Tree → Prop
  | [], [] => True
  | t :: ts, t' :: ts' => ReadsAs sr path wave o t t' ∧ ReadsAsList sr path wave (o + t.total) ts ts'
  | _, _ => False
end

mutual
/-- Every box is of the class registered for its type, is decoded to itself, and has the path made of the types above
it and its own. -/
def Faithful (sr : SimpleReader) (path : List BoxType) (wave : Bool) (o : Nat) : Tree → Prop
  | .node b p ls =>
    (∃ d, sr.map.find b.type = some d ∧ d.factory = b.data.kind) ∧
    DecodesTo (sr.env o) wave b (ls = []) b.data ∧ p = path ++ [b.type] ∧
    FaithfulList sr p (b.type = fourcc "wave") (o + Spec.headerSize (Tree.node b p ls).inner + b.data.getDataSize) ls
def FaithfulList (sr : SimpleReader) (path : List BoxType) (wave : Bool) (o : Nat) : List Tree → Prop
  | [] => True
  | t :: ts => Faithful sr path wave o t ∧ FaithfulList sr path wave (o + t.total) ts
end

end Tree
end Mp4
