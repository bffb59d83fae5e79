import Verif.Spec.Needed
import Verif.Spec.Dump
import Verif.Spec.Held
import Verif.Model.Dump

/-! # Members that no constructor and no `readData` gives a value

`Env` (Model/Box.lean) is what such members of newly constructed box objects happen to contain.  -/

namespace Mp4
namespace Spec

/-- A sample entry below a `wave` box (its fields are taken as one block of bytes). -/
def underWave : BoxData → Bool
  | .audio b => b.under_wave
  | _ => false

/-- Two contents of boxes of type `t` that print the same text and, unless they are sample entries below a `wave` box, write the same bits
(or fail in the same way) and say the same size. -/
structure Alike (t : BoxType) (d e : BoxData) : Prop where
  text : d.toStringOnlyData t = e.toStringOnlyData t
  wave : underWave d = underWave e
  written : underWave d = false → d.writeData = e.writeData
  size : underWave d = false → d.getDataSize = e.getDataSize

end Spec

mutual
/-- The same boxes with the same headers at the same places, their contents alike. -/
def Tree.Alike : Tree → Tree → Prop
  | .node b p ls, .node c q ms => b.type = c.type ∧ b.header = c.header ∧ p = q ∧ Spec.Alike b.type b.data c.data ∧ Tree.AlikeList ls ms
/-- The same boxes in the same order, their contents alike. -/
def Tree.AlikeList : List Tree → List Tree → Prop
  | [], [] => True
  | t :: ts, u :: us => t.Alike u ∧ Tree.AlikeList ts us
  | _, _ => False
end

namespace Spec

/-- Both readings refuse the file with the same exception, or both accept it and the boxes are alike. -/
def SameResult : Except Err (List Tree) → Except Err (List Tree) → Prop
  | .error e, .error e' => e = e'
  | .ok ts, .ok us => Tree.AlikeList ts us
  | _, _ => False

/-- A payload of an `sgpd` box with alternative startup entries and a version other than 1, which has no `default_length` field; the
length of its entries is then in no field of the box. -/
def NoLength (payload : List Byte) : Prop := version payload ≠ 1 ∧ numAt payload 4 4 = 0x616c7374

end Spec
end Mp4
