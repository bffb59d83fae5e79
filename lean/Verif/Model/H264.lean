import Verif.Model.Endian
import Verif.Spec.File

/-! # H.264 Annex B parsing (`src/track/h264.cpp`) -/

namespace Mp4

/-- `NalUnit` (include/shiguredo/mp4/track/h264.hpp:56-61). -/
structure NalUnit where
  start_code_size : Nat
  start : Nat
  end_ : Nat
  header : Byte
  deriving DecidableEq, Repr

/-- Dereferencing `data[i]`: outside the buffer this is undefined behaviour. -/
def byteAt (data : List Byte) (i : Nat) : Except Err Byte :=
  match data[i]? with
  | some b => .ok b
  | none => .error (.ub "read outside the buffer")

/-- `data[i] == b` as the second operand of `&&`: not evaluated when the first operand is false. -/
def andByte (c : Bool) (data : List Byte) (i : Nat) (b : Byte) : Except Err Bool :=
  if c then (byteAt data i).map (· == b) else .ok false

/-- The condition of line 167: `data[index] == 0 && data[index + 1] == 0 && (data[index + 2] == 0 & data[index + 3] == 1)`; `&` binds
tighter than `&&` and looser than `==`, and evaluates both operands. -/
def startCode4 (data : List Byte) (index : Nat) : Except Err Bool := do
  let c ← andByte true data index 0
  let c ← andByte c data (index + 1) 0
  if c then
    let a ← byteAt data (index + 2)
    let b ← byteAt data (index + 3)
    pure ((a == 0) && (b == 1))
  else pure false

/-- The condition of line 177. -/
def startCode3 (data : List Byte) (index : Nat) : Except Err Bool := do
  let c ← andByte true data index 0
  let c ← andByte c data (index + 1) 0
  andByte c data (index + 2) 1

/-- `return NalUnit{start_code_size, start, end, header}`: reading the variable before it has been assigned is undefined behaviour. -/
def returnNal (scs : Option Nat) (start end_ : Nat) (header : Byte) : Except Err NalUnit :=
  match scs with
  | none => .error (.ub "uninitialised start_code_size")
  | some s => .ok ⟨s, start, end_, header⟩

/-- The loop of `find_next_nal_unit` (src/track/h264.cpp:166-191) and what follows it (192-195).  `scs` is
`start_code_size`, uninitialised (`none`) until a start code has been seen; `n` bounds the number of rounds and is never reached
(`C47`).  Simplification: `index + 5` does not wrap (a buffer of more than 2^64 - 6 bytes does not exist). -/
def findGo (data : List Byte) (start : Nat) : Nat → Nat → Option Nat → Byte → Except Err NalUnit
  | 0, _, _, _ => .error (.exc "not reached")
  | n + 1, index, scs, header =>
    if index + 5 < data.length then do
      if ← startCode4 data index then
        if header = 0 then
          let h ← byteAt data (index + 4)
          findGo data start n (index + 4) (some 4) h
        else returnNal scs start index header
      else if ← startCode3 data index then
        if header = 0 then
          let h ← byteAt data (index + 3)
          findGo data start n (index + 3) (some 3) h
        else returnNal scs start index header
      else if index = start ∧ header = 0 then .error (.exc "not start with nalunit")
      else findGo data start n (index + 1) scs header
    else if header = 0 then .error (.exc "nalunit not found")
    else returnNal scs start data.length header

/-- `find_next_nal_unit` (src/track/h264.cpp:161-196). -/
def find_next_nal_unit (data : List Byte) (start : Nat) : Except Err NalUnit :=
  findGo data start (data.length - start + 1) start none 0

/-- The `switch` on `nu.header & 0x1f` (src/track/h264.cpp:97-142). -/
inductive NalKind where
  | vcl
  | sei
  | sps
  | pps
  | unsupported
  deriving DecidableEq, Repr

/-- src/track/h264.cpp:97-142 -/
def nalKind (header : Byte) : NalKind :=
  match (header &&& 0x1f#8).toNat with
  | 1 | 2 | 3 | 4 | 5 => .vcl
  | 6 => .sei
  | 7 => .sps
  | 8 => .pps
  | _ => .unsupported

/-- `H264Track`'s own members (include/shiguredo/mp4/track/h264.hpp:48-53). -/
structure H264Config where
  configuration_version : Byte
  profile : Byte
  profile_compatibility : Byte
  level : Byte
  sequence_parameter_sets : List (List Byte) := []
  picture_parameter_sets : List (List Byte) := []
  deriving DecidableEq, Repr

/-- The `case 7` (src/track/h264.cpp:120-131, 198-200): the set is appended and, when it is the first one and longer than 4
bytes, its bytes 1 to 3 replace profile, compatibility and level. -/
def H264Config.addSps (c : H264Config) (sps : List Byte) : H264Config :=
  let c := { c with sequence_parameter_sets := c.sequence_parameter_sets ++ [sps] }
  if c.sequence_parameter_sets.length = 1 ∧ sps.length > 4 then
    { c with profile := sps.getD 1 0, profile_compatibility := sps.getD 2 0, level := sps.getD 3 0 }
  else c

/-- The `case 8` (src/track/h264.cpp:132-137, 202-204). -/
def H264Config.addPps (c : H264Config) (pps : List Byte) : H264Config :=
  { c with picture_parameter_sets := c.picture_parameter_sets ++ [pps] }

end Mp4
