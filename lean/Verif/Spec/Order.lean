import Verif.Model.Order

/-! # Which calls on a writer come too early or too late

Stated in terms of the calls made before. -/

namespace Mp4.Spec

/-- `SimpleWriter`: the functions that use the size of the `ftyp` box must not come before the function that writes it. -/
def tooEarlySimple (before : List SimpleCall) : SimpleCall → Prop
  | .writeFreeBoxAndMdatHeader => .writeFtypBox ∉ before
  | .writeMoovBox => .writeFtypBox ∉ before
  | _ => False

/-- The boxes of `moov` were laid out by a call of `appendTrakAndUdtaBoxInfo`, and none was added since. -/
def laidOut (before : List FaststartCall) : Prop :=
  ∃ a tracks b, before = a ++ .appendTrakAndUdtaBoxInfo tracks :: b ∧ ∀ data, .appendUdtaBoxInfo data ∉ b

/-- `FaststartWriter`: the size of the `ftyp` box is needed by three functions; `writeMoovBox` also needs all boxes of `moov` laid out;
the intermediate file must not be used after it was closed. -/
def undefinedFaststart (before : List FaststartCall) : FaststartCall → Prop
  | .writeMdatHeader => .writeFtypBox ∉ before
  | .appendTrakAndUdtaBoxInfo _ => .writeFtypBox ∉ before
  | .writeMoovBox => .writeFtypBox ∉ before ∨ ¬ laidOut before
  | .addMdatData _ => .copyMdatData ∈ before
  | .tellCurrentMdatOffset => .copyMdatData ∈ before
  | .copyMdatData => .copyMdatData ∈ before
  | _ => False

end Mp4.Spec
