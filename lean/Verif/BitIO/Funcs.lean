import Verif.BitIO.Prog

/-!
# `bitio.hpp` / `bitio.cpp`

Every C++ template parameter `T` of bit width `w` becomes the implicit/explicit width `w`.
All functions return the number of bits they report (`wbits` / `rbits`), as in the code.
-/

namespace Mp4

/-- Number of value bits of `T` after integral promotion: shifting by this much or more is undefined. -/
def promotedWidth (w : Nat) : Nat := max w 32

/-- One iteration of the loop in `write_uint` (include/shiguredo/mp4/bitio/bitio.hpp:76-87) at bit
index `i`. -/
def writeUintGroup {w : Nat} (val : BitVec w) (size i : Nat) : W Nat :=
  if size > i + 8 then
    if size - (i + 8) ≥ promotedWidth w then W.throw (.ub "shift exceeds type width")
    else do
      W.writeBits [(val >>> (size - (i + 8))).setWidth 8] 8
      pure 8
  else if size < i + 8 then do
    W.writeBits [val.setWidth 8] (size - i)
    pure (size - i)
  else do
    W.writeBits [val.setWidth 8] 8
    pure 8

/-- The loop `for (i = 0; i < size; i += 8)` of `write_uint`, `k` iterations from index `i`. -/
def writeUintGo {w : Nat} (val : BitVec w) (size : Nat) : Nat → Nat → W Nat
  | 0, _ => pure 0
  | k + 1, i => do
    let a ← writeUintGroup val size i
    let b ← writeUintGo val size k (i + 8)
    pure (a + b)

/-- `write_uint<T>(writer, val, size)` (include/shiguredo/mp4/bitio/bitio.hpp:73-89).
For the one signed use (`write_uint<std::int16_t>`, smhd) the arithmetic shift agrees with the logical one on the
bits that are written. -/
def write_uint {w : Nat} (val : BitVec w) (size : Nat := w) : W Nat :=
  writeUintGo val size ((size + 7) / 8) 0

/-- The accumulation loop of `read_uint`/`read_int` (bitio.hpp:65-68, 100-103) on a 64-bit accumulator. -/
def accumulate (init : BitVec 64) (data : List Byte) : BitVec 64 :=
  data.foldl (fun val b => (val <<< 8) ||| b.setWidth 64) init

/-- `read_uint<T>(reader, &var, size)` (bitio.hpp:91-106). -/
def read_uint (w : Nat) (size : Nat := w) : R (Nat × BitVec w) :=
  if size = 0 then .throw (.exc "bitio::read_uint(): size must not be zero")
  else do
    let data ← R.readBits size
    pure (size, (accumulate 0 data).setWidth w)

/-- One iteration of the loop of `write_int` (bitio.hpp:21-40) at bit index `i`. -/
def writeIntGroup {w : Nat} (val : BitVec w) (size i : Nat) : W Nat :=
  let s := if size < i + 8 then size - i else 8
  if size > i + 8 ∧ size - (i + 8) ≥ promotedWidth w then W.throw (.ub "shift exceeds type width")
  else do
    let v := if size > i + 8 then val.sshiftRight (size - (i + 8)) else val
    let v := if i = 0 then
        if val.msb then v ||| (1#w <<< (s - 1)) else v &&& ((1#w <<< (s - 1)) - 1#w)
      else v
    W.writeBits [v.setWidth 8] s
    pure s

/-- The loop of `write_int`, `k` iterations from index `i`. -/
def writeIntGo {w : Nat} (val : BitVec w) (size : Nat) : Nat → Nat → W Nat
  | 0, _ => pure 0
  | k + 1, i => do
    let a ← writeIntGroup val size i
    let b ← writeIntGo val size k (i + 8)
    pure (a + b)

/-- `write_int<T>(writer, val, size)` (bitio.hpp:17-42). -/
def write_int {w : Nat} (val : BitVec w) (size : Nat := w) : W Nat :=
  writeIntGo val size ((size + 7) / 8) 0

/-- `read_int<T>(reader, &var, size)` (bitio.hpp:44-71). -/
def read_int (w : Nat) (size : Nat := w) : R (Nat × BitVec w) :=
  if size = 0 then .throw (.exc "bitio::read_int(): size must not be zero")
  else do
    let data ← R.readBits size
    let mask : Byte := 1#8 <<< ((size - 1) % 8)
    match data with
    | [] => pure (size, (accumulate 0 []).setWidth w)
    | d0 :: ds =>
      if d0 &&& mask ≠ 0 then
        pure (size, (accumulate (BitVec.allOnes 64) ((d0 ||| ~~~(mask - 1)) :: ds)).setWidth w)
      else pure (size, (accumulate 0 (d0 :: ds)).setWidth w)

/-- The loop of `write_uvarint` (bitio.hpp:147-154): `k` groups remain, the next shift is `7*(k-1)`. -/
def writeUvarintGo (val : BitVec 64) : Nat → W Unit
  | 0 => pure ()
  | k + 1 => do
    let i := 7 * k
    let data : Byte := ((val >>> i) &&& 0x7f#64).setWidth 8
    let data := if i > 0 then data ||| 0x80#8 else data
    W.writeBits [data] 8
    writeUvarintGo val k

/-- `uvarint_size` (bitio.hpp:139-142) of an integer of `w/8` bytes. -/
def uvarint_size (w : Nat) : Nat := w / 8

/-- `write_uvarint` (bitio.hpp:144-157). -/
def write_uvarint {w : Nat} (u : BitVec w) : W Nat := do
  writeUvarintGo (u.setWidth 64) (uvarint_size w)
  pure (uvarint_size w * 8)

/-- The loop of `read_uvarint` (bitio.hpp:163-172).  The fuel is larger than the number of bytes left in the stream,
so it never runs out before `readBits` fails. -/
def readUvarintGo (w : Nat) : Nat → BitVec w → Nat → R (Nat × BitVec w)
  | 0, _, _ => .throw .eof
  | fuel + 1, val, rbits => do
    let v ← R.readBits 8
    let v0 := v.getD 0 0
    let rbits := rbits + 8
    let val := (val <<< 7) + (v0 &&& 0x7f#8).setWidth w
    if v0 &&& 0x80#8 = 0 then pure (rbits, val) else readUvarintGo w fuel val rbits

/-- `read_uvarint` (bitio.hpp:159-173). -/
def read_uvarint (w : Nat) : R (Nat × BitVec w) := do
  let n ← R.offsetToEnd
  readUvarintGo w (n + 1) 0 0

/-- Write the bytes of a string or vector, 8 bits each. -/
def writeBytes8 : List Byte → W Nat
  | [] => pure 0
  | c :: l => do
    W.writeBits [c] 8
    let b ← writeBytes8 l
    pure (8 + b)

/-- `write_string` (src/bitio/bitio.cpp:19-30). -/
def write_string (str : List Byte) : W Nat := do
  let a ← writeBytes8 str
  W.writeBits [0x00#8] 8
  pure (a + 8)

/-- The loop of `read_string` (src/bitio/bitio.cpp:35-43): at most `k` more iterations. -/
def readStringGo : Nat → R (Nat × List Byte)
  | 0 => pure (0, [])
  | k + 1 => do
    let v ← R.readBits 8
    let v0 := v.getD 0 0
    if v0 = 0 then pure (8, [])
    else do
      let (n, s) ← readStringGo k
      pure (8 + n, v0 :: s)

/-- `read_string(reader, &str, max_rbits)` (src/bitio/bitio.cpp:32-45). The loop runs while `rbits < max_rbits`,
in steps of 8. -/
def read_string (maxRbits : Nat) : R (Nat × List Byte) := readStringGo ((maxRbits + 7) / 8)

/-- `write_pascal_string` (src/bitio/bitio.cpp:47-62). -/
def write_pascal_string (str : List Byte) : W Nat :=
  if str.length > 0xff then
    W.throw (.exc "bitio::write_pascal_string(): size of pascal string should be equal or less than 0xff")
  else do
    W.writeBits [BitVec.ofNat 8 str.length] 8
    let a ← writeBytes8 str
    pure (8 + a)

/-- Read `k` bytes, 8 bits each (src/bitio/bitio.cpp:90-95). -/
def readBytes8 : Nat → R (Nat × List Byte)
  | 0 => pure (0, [])
  | k + 1 => do
    let v ← R.readBits 8
    let (n, s) ← readBytes8 k
    pure (8 + n, v.getD 0 0 :: s)

/-- `read_pascal_string` (src/bitio/bitio.cpp:64-97). -/
def read_pascal_string (maxRbits : Nat) : R (Nat × List Byte) :=
  if maxRbits < 2 * 8 then read_string maxRbits
  else do
    let offset ← R.tellg
    let v ← R.readBits 8
    let v0 := v.getD 0 0
    if v0.toNat * 8 ≠ maxRbits - 8 then do
      R.seekg offset
      read_string maxRbits
    else do
      let (n, s) ← readBytes8 v0.toNat
      pure (n + 8, s)

/-- `write_bool` (src/bitio/bitio.cpp:99-104). -/
def write_bool (b : Bool) : W Nat := do
  W.writeBits [if b then 0xff#8 else 0x00#8] 1
  pure 1

/-- `read_bool` (src/bitio/bitio.cpp:106-111). -/
def read_bool : R (Nat × Bool) := do
  let v ← R.readBits 1
  pure (1, v.getD 0 0 != 0)

/-- Call a writer on each element of a vector, summing the reported bits
(`write_vector_uint`, bitio.hpp:120-127, and the entry loops of the boxes). -/
def writeList {α : Type} (f : α → W Nat) : List α → W Nat
  | [] => pure 0
  | x :: l => do
    let a ← f x
    let b ← writeList f l
    pure (a + b)

/-- Read `n` elements, summing the reported bits (`read_vector_uint`, bitio.hpp:129-137, and the entry loops of
the boxes).  Simplification: `resize(n)` never fails. -/
def readN {α : Type} (p : R (Nat × α)) : Nat → R (Nat × List α)
  | 0 => pure (0, [])
  | n + 1 => do
    let (a, x) ← p
    let (b, l) ← readN p n
    pure (a + b, x :: l)

/-- `write_vector_uint<T>` (bitio.hpp:120-127). -/
def write_vector_uint {w : Nat} (v : List (BitVec w)) : W Nat := writeList (fun c => write_uint c) v

/-- `read_vector_uint<T>` (bitio.hpp:129-137). -/
def read_vector_uint (w : Nat) (size : Nat) : R (Nat × List (BitVec w)) := readN (read_uint w) size

/-- `std::array<std::uint8_t, 4>`. -/
structure Arr4 where
  b0 : Byte
  b1 : Byte
  b2 : Byte
  b3 : Byte
  deriving DecidableEq, Repr

/-- `write_array_uint8_4` (src/bitio/bitio.cpp:113-119). -/
def write_array_uint8_4 (v : Arr4) : W Nat := do
  let a ← write_uint v.b0
  let b ← write_uint v.b1
  let c ← write_uint v.b2
  let d ← write_uint v.b3
  pure (a + b + c + d)

/-- `read_array_uint8_4` (src/bitio/bitio.cpp:121-126). -/
def read_array_uint8_4 : R (Nat × Arr4) := do
  let (_, a) ← read_uint 8
  let (_, b) ← read_uint 8
  let (_, c) ← read_uint 8
  let (_, d) ← read_uint 8
  pure (32, ⟨a, b, c, d⟩)

end Mp4
