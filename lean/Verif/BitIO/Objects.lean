import Verif.Core.Stream

/-!
# The `bitio::Writer` and `bitio::Reader` objects

Concrete state machines, function by function.
-/

namespace Mp4

/-- `bitio::Writer`: stream, `m_octet`, `m_width`
(include/shiguredo/mp4/bitio/writer.hpp, src/bitio/writer.cpp:15). -/
structure Writer where
  os : OStream
  octet : Byte
  width : Nat
  deriving DecidableEq, Repr

/-- `Writer::Writer` (src/bitio/writer.cpp:15; members start at 0). -/
def Writer.new (os : OStream) : Writer := ⟨os, 0, 0⟩

/-- `Writer::writeBit` (src/bitio/writer.cpp:40-57). -/
def Writer.writeBit (w : Writer) (bit : Bool) : Writer :=
  let octet := if bit then w.octet ||| (1#8 <<< (7 - w.width)) else w.octet
  let width := w.width + 1
  if width = 8 then { os := w.os.write [octet], octet := 0, width := 0 }
  else { w with octet := octet, width := width }

/-- The bits selected by `Writer::writeBits(data, width)` (src/bitio/writer.cpp:31-38): bit positions
`offset = 8*size - width` up to the end.  When `width > 8*size` the unsigned `offset` wraps to a huge value and
the loop body never runs. -/
def writeBitsSel (data : List Byte) (width : Nat) : List Bool :=
  if width ≤ data.length * 8 then
    (List.range width).map fun k =>
      let i := data.length * 8 - width + k
      (data.getD (i / 8) 0).getLsbD (7 - i % 8)
  else []

/-- `Writer::writeBits` (src/bitio/writer.cpp:31-38). -/
def Writer.writeBits (w : Writer) (data : List Byte) (width : Nat) : Writer :=
  (writeBitsSel data width).foldl Writer.writeBit w

/-- A sequence of `writeBit` calls. -/
def Writer.push (w : Writer) (bs : List Bool) : Writer := bs.foldl Writer.writeBit w

/-- `Writer::write` (src/bitio/writer.cpp:15-29): only at a byte boundary. -/
def Writer.write (w : Writer) (p : List Byte) : Except Err Writer :=
  if w.width ≠ 0 then .error (.exc "bitio::Writer::write(): width is not 0")
  else .ok { w with os := w.os.write p }

/-- `bitio::Reader`: stream, `m_octet`, `m_width` (src/bitio/reader.cpp:15). -/
structure Reader where
  is : IStream
  octet : Byte
  width : Nat
  deriving DecidableEq, Repr

/-- `Reader::Reader` (src/bitio/reader.cpp:15). -/
def Reader.new (is : IStream) : Reader := ⟨is, 0, 0⟩

/-- `Reader::readBit` (src/bitio/reader.cpp:45-58).  The stream state after a failure is not modelled:
every caller in the library lets the exception propagate. -/
def Reader.readBit (r : Reader) : Except Err (Bool × Reader) :=
  let r' : Except Err Reader :=
    if r.width = 0 then
      match r.is.data[r.is.pos]? with
      | none => .error .eof
      | some c => .ok { is := { r.is with pos := r.is.pos + 1 }, octet := c, width := 8 }
    else .ok r
  match r' with
  | .error e => .error e
  | .ok r => .ok (r.octet.getLsbD (r.width - 1), { r with width := r.width - 1 })

/-- The loop of `Reader::readBits` (src/bitio/reader.cpp:35-42): collects `size` bits. -/
def Reader.readBitList (r : Reader) : Nat → Except Err (List Bool × Reader)
  | 0 => .ok ([], r)
  | n + 1 =>
    match r.readBit with
    | .error e => .error e
    | .ok (b, r) =>
      match r.readBitList n with
      | .error e => .error e
      | .ok (bs, r) => .ok (b :: bs, r)

/-- Result vector of `Reader::readBits` (src/bitio/reader.cpp:29-42): the bits right aligned in
`(size + 7) >> 3` bytes. -/
def packBits (bs : List Bool) : List Byte :=
  toBytes (List.replicate ((bs.length + 7) / 8 * 8 - bs.length) false ++ bs)

/-- `Reader::readBits` (src/bitio/reader.cpp:29-43). -/
def Reader.readBits (r : Reader) (size : Nat) : Except Err (List Byte × Reader) :=
  match r.readBitList size with
  | .error e => .error e
  | .ok (bs, r) => .ok (packBits bs, r)

/-- `Reader::read` (src/bitio/reader.cpp:17-27). -/
def Reader.read (r : Reader) (size : Nat) : Except Err (List Byte × Reader) :=
  if r.width ≠ 0 then .error (.exc "bitio::Reader::read(): m_width must be 0")
  else if r.is.pos + size ≤ r.is.data.length then
    .ok ((r.is.data.drop r.is.pos).take size, { r with is := { r.is with pos := r.is.pos + size } })
  else .error .eof

/-- Origin of a seek (`std::ios_base::seekdir`). -/
inductive SeekDir where
  | beg | cur | end_
  deriving DecidableEq, Repr

/-- `Reader::seek` (src/bitio/reader.cpp:60-70): refused in the middle of a byte for a relative seek; the offset is reinterpreted as
signed; the partial octet is dropped.  `istream::seekg` is that of a string buffer (a target outside the content
fails; a file buffer would also accept targets past the end).  Returns the new position (`tellg`). -/
def Reader.seek (r : Reader) (offset : BitVec 64) (way : SeekDir) : Except Err (Nat × Reader) :=
  if way = .cur ∧ r.width ≠ 0 then .error (.exc "bitio::Reader::seek(): m_width must be 0")
  else
    let base : Int := match way with
      | .beg => 0
      | .cur => r.is.pos
      | .end_ => r.is.data.length
    let target := base + offset.toInt
    if 0 ≤ target ∧ target ≤ r.is.data.length then
      .ok (target.toNat, { r with is := { r.is with pos := target.toNat }, width := 0 })
    else .error .eof

/-! ## Abstraction -/

/-- Bits accepted but not yet flushed. -/
def Writer.pending (w : Writer) : List Bool := (bits w.octet).take w.width

/-- Reachable writer states: fewer than 8 pending bits, unused low bits of the octet are zero. -/
def Writer.Inv (w : Writer) : Prop := w.width < 8 ∧ w.octet.toNat % 2 ^ (8 - w.width) = 0

/-- Bits still to be delivered: unread low bits of the current octet, then the rest of the stream. -/
def Reader.rem (r : Reader) : List Bool :=
  natBits r.width r.octet.toNat ++ bytesBits (r.is.data.drop r.is.pos)

/-- Reachable reader states. -/
def Reader.Inv (r : Reader) : Prop := r.width < 8 ∧ r.is.pos ≤ r.is.data.length

end Mp4
