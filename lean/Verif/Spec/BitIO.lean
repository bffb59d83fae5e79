import Verif.BitIO.Objects
import Verif.Spec.RoundTrip

/-!
# Bit streams with byte-wise access

What a mix of bit-wise and byte-wise calls on a writer or a reader means, in terms of a list of bits (writer) and of a bit position in a
byte string (reader).
-/

namespace Mp4

/-- A call on a `bitio::Writer`. -/
inductive WCall where
  /-- `writeBits(data, width)` -/
  | bits (data : List Byte) (width : Nat)
  /-- `write(p)` -/
  | bytes (p : List Byte)

/-- Perform the call; `none` when it throws. -/
def WCall.perform (w : Writer) : WCall → Except Err Writer
  | .bits data width => .ok (w.writeBits data width)
  | .bytes p => w.write p

/-- A caller that makes the calls one after the other and carries on after an exception: which calls succeeded,
and the final writer. -/
def Writer.session (w : Writer) : List WCall → List Bool × Writer
  | [] => ([], w)
  | c :: cs =>
    match c.perform w with
    | .ok w' => let r := w'.session cs; (true :: r.1, r.2)
    | .error _ => let r := w.session cs; (false :: r.1, r.2)

/-- `width` does not exceed the bits available. -/
def WCall.Valid : WCall → Prop
  | .bits data width => width ≤ 8 * data.length
  | .bytes _ => True

/-- Specification: the bits accepted by the calls, given those accepted before, and which calls succeed. -/
def Spec.accept (acc : List Bool) : List WCall → List Bool × List Bool
  | [] => ([], acc)
  | .bits data width :: cs => let r := accept (acc ++ lastBits data width) cs; (true :: r.1, r.2)
  | .bytes p :: cs =>
    if acc.length % 8 = 0 then let r := accept (acc ++ bytesBits p) cs; (true :: r.1, r.2)
    else let r := accept acc cs; (false :: r.1, r.2)

/-- A call on a `bitio::Reader`. -/
inductive RCall where
  /-- `readBits(&v, size)` -/
  | bits (size : Nat)
  /-- `read(&v)` with `v.size() = size` -/
  | bytes (size : Nat)
  /-- `seek(offset, way)` -/
  | seek (offset : BitVec 64) (way : SeekDir)

/-- What a call gives back. -/
inductive RAnswer where
  | vec (v : List Byte)
  | pos (n : Nat)
  /-- `std::invalid_argument`: nothing changed -/
  | refused
  /-- `std::runtime_error`: the stream has failed -/
  | failed
  deriving DecidableEq, Repr

/-- Perform the calls until the stream fails (afterwards every call fails), carrying on after a refusal. -/
def Reader.session (r : Reader) : List RCall → List RAnswer
  | [] => []
  | c :: cs =>
    let out : Except Err (RAnswer × Reader) := match c with
      | .bits n => (r.readBits n).map fun x => (.vec x.1, x.2)
      | .bytes n => (r.read n).map fun x => (.vec x.1, x.2)
      | .seek o w => (r.seek o w).map fun x => (.pos x.1, x.2)
    match out with
    | .ok (a, r') => a :: r'.session cs
    | .error .eof => [.failed]
    | .error _ => .refused :: r.session cs

/-- The bits of `v` are `bs`, right aligned in the least number of bytes. -/
def Spec.rightAlign (bs : List Bool) : List Byte :=
  toBytes (List.replicate ((bs.length + 7) / 8 * 8 - bs.length) false ++ bs)

/-- Specification: the answers for a file `data` with the read position at bit `p`. -/
def Spec.answers (data : List Byte) (p : Nat) : List RCall → List RAnswer
  | [] => []
  | .bits n :: cs =>
    if p + n ≤ 8 * data.length then
      .vec (rightAlign (((bytesBits data).drop p).take n)) :: answers data (p + n) cs
    else [.failed]
  | .bytes n :: cs =>
    if p % 8 ≠ 0 then .refused :: answers data p cs
    else if p / 8 + n ≤ data.length then
      .vec ((data.drop (p / 8)).take n) :: answers data (p + 8 * n) cs
    else [.failed]
  | .seek o way :: cs =>
    if way = .cur ∧ p % 8 ≠ 0 then .refused :: answers data p cs
    else
      let target : Int := (match way with
        | .beg => 0
        | .cur => (p / 8 : Nat)
        | .end_ => data.length) + o.toInt
      if 0 ≤ target ∧ target ≤ data.length then .pos target.toNat :: answers data (8 * target.toNat) cs
      else [.failed]

end Mp4
