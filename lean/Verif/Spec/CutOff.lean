import Verif.Spec.File
import Verif.Spec.Tree

/-! # Specification: files made of boxes, and files cut off -/

namespace Mp4

/-- A box of any type with any content: size, type and content, the size in the long form when it does not fit in four bytes. -/
def Spec.rawBox (type : BoxType) (content : List Byte) : List Byte :=
  Spec.boxHeader (content.length + Spec.headerSize content.length) (BoxType.bytes type) ++ content

/-- Boxes one after the other. -/
def Spec.rawBoxes : List (BoxType × List Byte) → List Byte
  | [] => []
  | (type, content) :: bs => Spec.rawBox type content ++ Spec.rawBoxes bs

end Mp4
