import Verif.Spec.File
import Verif.Model.H264

/-! # Annex B byte streams (ISO/IEC 14496-10 Annex B), independent of the model

`H264Config` are the members of `H264Track` that make up the decoder configuration record. -/

namespace Mp4.Spec

/-- A start code prefix: three or four bytes. -/
def startCode (long : Bool) : List Byte := if long then [0, 0, 0, 1] else [0, 0, 1]

/-- NAL units, each with its kind of start code (`true`: four bytes), joined to a byte stream. -/
def annexB : List (Bool × List Byte) → List Byte
  | [] => []
  | (long, nal) :: us => startCode long ++ nal ++ annexB us

/-- A start code is found at position `i` of the buffer. -/
def StartCodeAt (data : List Byte) (i : Nat) : Prop :=
  slice data i 3 = [0, 0, 1] ∨ slice data i 4 = [0, 0, 0, 1]

/-- A NAL unit as the standard requires it: not empty, no start code inside, not ending in a zero byte (7.4.1); and its header
byte is not zero (`nal_unit_type` 0 is unspecified). -/
def NalOk (nal : List Byte) : Prop :=
  nal.head? ≠ some 0 ∧ nal.getLast? ≠ some 0 ∧ nal ≠ [] ∧ ¬ [0, 0, 1] <:+: nal

/-- `nal_unit_type`: the low five bits of the first byte (ISO/IEC 14496-10 7.3.1). -/
def nalType (nal : List Byte) : Nat := (nal.headD 0).toNat % 32

/-- The samples for the units `nals`: each VCL unit (types 1 to 5) with its length in four bytes, big-endian, in front. -/
def vclSamples (nals : List (List Byte)) : List (List Byte) :=
  (nals.filter fun n => 1 ≤ nalType n && nalType n ≤ 5).map fun n => beBytes 4 n.length ++ n

/-- What the units `nals` change in the configuration record: SPS (type 7) and PPS (type 8) are appended, and the first SPS of all, when
longer than four bytes, sets profile, compatibility flags and level. -/
def configured (cfg : H264Config) (nals : List (List Byte)) : H264Config :=
  let sps := nals.filter (nalType · == 7)
  let cfg' := { cfg with
    sequence_parameter_sets := cfg.sequence_parameter_sets ++ sps
    picture_parameter_sets := cfg.picture_parameter_sets ++ nals.filter (nalType · == 8) }
  match cfg.sequence_parameter_sets, sps with
  | [], (_ :: p :: c :: l :: _ :: _) :: _ => { cfg' with profile := p, profile_compatibility := c, level := l }
  | _, _ => cfg'

end Mp4.Spec
