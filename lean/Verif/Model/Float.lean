import Verif.Model.Track

/-! # Model: `float` and `double` arithmetic, and the durations computed with it

C++ leaves the floating point formats and the rounding of conversions to the implementation.  The model is IEC 60559 (IEEE 754) with
`float` = binary32, `double` = binary64, round to nearest with ties to even, and every operation rounded once (FLT_EVAL_METHOD 0):
what every platform the library is built for provides. -/

namespace Mp4

/-- A non-negative binary number `m · 2^e`. -/
structure Bin where
  m : Nat
  e : Int
  deriving DecidableEq

/-- `m / 2^k` rounded to the nearest integer, ties to even. -/
def rne (m k : Nat) : Nat :=
  if 2 * (m % 2 ^ k) > 2 ^ k ∨ (2 * (m % 2 ^ k) = 2 ^ k ∧ m / 2 ^ k % 2 = 1) then m / 2 ^ k + 1 else m / 2 ^ k

/-- Rounding to `p` significant bits and exponents from `emin`. -/
def Bin.round (p : Nat) (emin : Int) (x : Bin) : Bin :=
  let k := max (x.m.log2 + 1 - p) (emin - x.e).toNat
  ⟨rne x.m k, x.e + k⟩

/-- The integer part. -/
def Bin.trunc (x : Bin) : Nat := if x.e < 0 then x.m / 2 ^ (-x.e).toNat else x.m * 2 ^ x.e.toNat

/-- A `float` value. -/
inductive Float32
  | nan
  | inf (neg : Bool)
  | fin (neg : Bool) (b : Bin)
  deriving DecidableEq

namespace Float32

/-- The value with the given representation (binary32). -/
def ofBits (b : BitVec 32) : Float32 :=
  let e : Nat := b.toNat / 2 ^ 23 % 256
  let f := b.toNat % 2 ^ 23
  if e = 255 then (if f = 0 then .inf b.msb else .nan)
  else if e = 0 then .fin b.msb ⟨f, -149⟩
  else .fin b.msb ⟨2 ^ 23 + f, (e : Int) - 150⟩

/-- The rounded result of an operation: values from 2^128 on are infinite. -/
def rounded (neg : Bool) (x : Bin) : Float32 :=
  let r := x.round 24 (-149)
  if 2 ^ 128 ≤ r.trunc then .inf neg else .fin neg r

/-- `static_cast<float>(std::uint32_t)`. -/
def ofUInt32 (n : BitVec 32) : Float32 := rounded false ⟨n.toNat, 0⟩

/-- `float * float`. -/
def mul : Float32 → Float32 → Float32
  | .nan, _ | _, .nan => .nan
  | .inf s, .inf t => .inf (s ^^ t)
  | .inf s, .fin t b | .fin s b, .inf t => if b.m = 0 then .nan else .inf (s ^^ t)
  | .fin s a, .fin t b => rounded (s ^^ t) ⟨a.m * b.m, a.e + b.e⟩

/-- `static_cast<std::uint64_t>(float)`. `none`: undefined behaviour, the truncated value is not a `std::uint64_t`. -/
def toUInt64 : Float32 → Option (BitVec 64)
  | .nan | .inf _ => none
  | .fin neg b => if b.trunc < 2 ^ 64 ∧ (neg = true → b.trunc = 0) then some (BitVec.ofNat 64 b.trunc) else none

end Float32

/-- `static_cast<std::uint64_t>(static_cast<float>(timescale) * duration)`: `Track::getDurationInTimescale`,
`Track::getDurationInMvhdTimescale` (src/track/track.cpp:158-164), the constructor of `SimpleWriter` (src/writer/simple_writer.cpp:31)
and `FaststartWriter::recreateMoovBoxInfo` (src/writer/faststart_writer.cpp:56).  `duration` is the representation of the `float`.
`none`: undefined behaviour. -/
def durationIn (timescale : BitVec 32) (duration : BitVec 32) : Option (BitVec 64) :=
  ((Float32.ofUInt32 timescale).mul (Float32.ofBits duration)).toUInt64

/-- The parameters of a track constructed with the `float` `duration` for a writer whose time scale is `mvhd_timescale`
(the constructors src/track/h264.cpp:16-33, vpx.cpp:12-28, av1.cpp:12-32, opus.cpp:13-25, aac.cpp:14-26, mp3.cpp:12-24 with
src/track/track.cpp:158-164).  Simplification: the products are computed here once, in the code when they are needed. -/
def TrackParameters.make (timescale duration mvhd_timescale : BitVec 32) (time_from_epoch media_time : BitVec 64) (track_id : BitVec 32)
    (codec : Codec) : Option TrackParameters := do
  let own ← durationIn (match codec with
    | .opus .. => 48000
    | _ => timescale) duration
  let movie ← durationIn mvhd_timescale duration
  return { timescale, durationInTimescale := own, durationInMvhdTimescale := movie, time_from_epoch, media_time, track_id }

end Mp4
