import Verif.Spec.Tree
import Verif.Spec.Rewrite
import Verif.Spec.Reader

/-! # The file that a tree of boxes stands for -/

namespace Mp4

/-- A box header on disk (ISO/IEC 14496-12 4.2): the size 0 for a box that extends to the end of the file, the size 1 and a size of eight bytes
behind the type for a header of 16 bytes. -/
def Spec.headerOf (h : BoxHeader) : List Byte :=
  if h.extendToEof then beBytes 4 0 ++ BoxType.bytes h.type
  else if h.headerSize = 8 then beBytes 4 h.size ++ BoxType.bytes h.type
  else beBytes 4 1 ++ BoxType.bytes h.type ++ beBytes 8 h.size

namespace Tree

mutual
/-- The header, what `writeData` produces for the fields, and the children, one behind the other. -/
def image : Tree → List Byte
  | .node b _ ls => b.header.toList.flatMap Spec.headerOf ++ toBytes b.data.writeData.out ++ imageList ls
def imageList : List Tree → List Byte
  | [] => []
  | t :: ts => t.image ++ imageList ts
end

/-- The size of a box as its header states it. -/
def statedSize (t : Tree) : Nat := t.box.header.elim 0 (·.size)

/-- The header of the box states the size that the box and its children have by the library's own calculation. -/
def SameSize (b : Box) (ls : List Tree) : Prop :=
  ∀ h, b.header = some h → h.size = h.headerSize + b.data.getDataSize + (ls.map statedSize).sum

mutual
/-- A box, for a parent that is a `wave` box when `wave`, and the boxes below it, whose content is known once the fields are: the class has
one encoding for its fields, or the box has the size the library computes and is none of the boxes that forget something (`esds`, `meta`, a
`stsz` with a common sample size, a `hdlr` with a Pascal string, an audio sample entry below `wave`, an `iods` whose descriptor is not of the
length 7).  Of `avcC` the reader skips up to three bytes at the end, hence the size. -/
def Lossless (wave : Bool) : Tree → Prop
  | .node b _ ls =>
    ((b.data.kind.oneForm wave = true ∧ b.data.kind ≠ .avcC) ∨
      (SameSize b ls ∧ b.data.LengthDetermines ∧ ∀ x, b.data = .iods x → x.descriptor_length = 7)) ∧
    LosslessList (b.type = fourcc "wave") ls
def LosslessList (wave : Bool) : List Tree → Prop
  | [] => True
  | t :: ts => t.Lossless wave ∧ LosslessList wave ts
end

end Tree
end Mp4
