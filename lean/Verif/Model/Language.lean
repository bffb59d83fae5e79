import Verif.Core.Stream

/-! # Language packing (`src/box/mdhd.cpp`) -/

namespace Mp4

/-- `std::array<std::uint8_t, 3>` -/
structure Arr3 where
  b0 : Byte
  b1 : Byte
  b2 : Byte
  deriving DecidableEq, Repr

/-- `encode_language` (src/box/mdhd.cpp:82-84); `int` arithmetic, then a cast to `uint16_t`. -/
def encode_language (l : Arr3) : BitVec 16 :=
  BitVec.ofInt 16 (((l.b0.toNat : Int) - 0x60) * 2 ^ 10 + ((l.b1.toNat : Int) - 0x60) * 2 ^ 5
    + ((l.b2.toNat : Int) - 0x60))

/-- `decode_language` (src/box/mdhd.cpp:86-92). -/
def decode_language (enc : BitVec 16) : Arr3 :=
  ⟨((enc >>> 10) &&& 0x1f#16).setWidth 8 + 0x60#8,
   ((enc >>> 5) &&& 0x1f#16).setWidth 8 + 0x60#8,
   (enc &&& 0x1f#16).setWidth 8 + 0x60#8⟩

end Mp4
