import Verif.Model.Endian
import Verif.Model.BoxType

/-! # `src/box_header.cpp` -/

namespace Mp4

/-- Reduction to `std::uint64_t`. -/
def u64 (n : Nat) : Nat := n % 2 ^ 64

/-- Subtraction of `std::uint64_t` values. -/
def sub64 (a b : Nat) : Nat := (a + 2 ^ 64 - b) % 2 ^ 64

/-- `Constants::SMALL_HEADER_SIZE` (include/shiguredo/mp4/constants.hpp:9). -/
def SMALL_HEADER_SIZE : Nat := 8

/-- `Constants::LARGE_HEADER_SIZE` (include/shiguredo/mp4/constants.hpp:10). -/
def LARGE_HEADER_SIZE : Nat := 16

/-- `std::numeric_limits<std::uint32_t>::max()` -/
def UINT32_MAX : Nat := 2 ^ 32 - 1

/-- `BoxHeader` (include/shiguredo/mp4/box_header.hpp:21-47).  The 64-bit fields are natural numbers; every
arithmetic result is reduced with `u64`/`sub64`. -/
structure BoxHeader where
  offset : Nat := 0
  size : Nat := 0
  headerSize : Nat := 8
  type : BoxType
  extendToEof : Bool := false
  deriving DecidableEq, Repr

namespace BoxHeader

/-- `BoxHeader::getDataSize` (src/box_header.cpp:129-131). -/
def getDataSize (h : BoxHeader) : Nat := sub64 h.size h.headerSize

/-- The `data` vector assembled by `BoxHeader::write` (src/box_header.cpp:81-106). -/
def headerBytes (h : BoxHeader) : List Byte :=
  let t := BoxType.bytes h.type
  if h.extendToEof then [0, 0, 0, 0] ++ t
  else if h.size ≤ UINT32_MAX ∧ h.headerSize ≠ LARGE_HEADER_SIZE then uint32_to_be (BitVec.ofNat 32 h.size) ++ t
  else [0, 0, 0, 1] ++ t ++ uint64_to_be (BitVec.ofNat 64 h.size)

/-- The header after `BoxHeader::write` (src/box_header.cpp:109-110). -/
def afterWrite (h : BoxHeader) : BoxHeader :=
  { h with size := u64 (h.size + sub64 h.headerBytes.length h.headerSize), headerSize := h.headerBytes.length }

/-- `BoxHeader::write` (src/box_header.cpp:76-112): returned `m_size`, updated object, updated stream. -/
def write (h : BoxHeader) (os : OStream) : Nat × BoxHeader × OStream :=
  (h.afterWrite.size, h.afterWrite, (os.seekp h.offset).write h.headerBytes)

/-- `BoxHeader::setOffsetAndDataSize` (src/box_header.cpp:152-160). -/
def setOffsetAndDataSize (h : BoxHeader) (t_offset t_data_size : Nat) : BoxHeader :=
  let hs := if t_data_size > UINT32_MAX - SMALL_HEADER_SIZE then LARGE_HEADER_SIZE else SMALL_HEADER_SIZE
  { h with offset := t_offset, headerSize := hs, size := u64 (t_data_size + hs) }

end BoxHeader

/-- `read_box_header` (src/box_header.cpp:18-67) on a stream positioned at `is.pos`.  When the position is behind the end
`offset_eof - offset` wraps and `std::copy_n` dereferences an end-of-stream iterator: undefined behaviour.
The position the stream is left at is not modelled: the only caller seeks (`seekToData`). -/
def read_box_header (is : IStream) : Except Err BoxHeader :=
  let offset := is.pos
  let offset_eof := is.data.length
  if sub64 offset_eof offset < SMALL_HEADER_SIZE then
    .error (.exc "read_box_header(): stream has not enough data (1)")
  else if offset_eof < offset then .error (.ub "copy_n past the end of the stream")
  else
    match is.data.drop offset with
    | a :: b :: c :: d :: t0 :: t1 :: t2 :: t3 :: more =>
      let size := (be_to_uint32 a b c d).toNat
      let type : BoxType := ⟨t0, t1, t2, t3⟩
      if size = 0 then
        .ok { offset := offset, size := sub64 offset_eof offset, headerSize := SMALL_HEADER_SIZE, type := type,
              extendToEof := true }
      else if size = 1 then
        if sub64 offset_eof offset < LARGE_HEADER_SIZE then
          .error (.exc "read_box_header(): stream has not enough data (2)")
        else
          match more with
          | a :: b :: c :: d :: e :: f :: g :: h :: _ =>
            .ok { offset := offset, size := (be_to_uint64 a b c d e f g h).toNat, headerSize := LARGE_HEADER_SIZE,
                  type := type, extendToEof := false }
          | _ => .error (.ub "copy_n past the end of the stream")
      else .ok { offset := offset, size := size, headerSize := SMALL_HEADER_SIZE, type := type, extendToEof := false }
    | _ => .error (.ub "copy_n past the end of the stream")

end Mp4
