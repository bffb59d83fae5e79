import Verif.Core.Stream

/-! # `src/endian/endian.cpp` -/

namespace Mp4

/-- `be_to_uint32(d0, d1, d2, d3)` (src/endian/endian.cpp:8-11). -/
def be_to_uint32 (d0 d1 d2 d3 : Byte) : BitVec 32 :=
  (d0.setWidth 32 <<< 24) + (d1.setWidth 32 <<< 16) + (d2.setWidth 32 <<< 8) + d3.setWidth 32

/-- `be_to_uint64(d0, ..., d7)` (src/endian/endian.cpp:17-29). -/
def be_to_uint64 (d0 d1 d2 d3 d4 d5 d6 d7 : Byte) : BitVec 64 :=
  (d0.setWidth 64 <<< 56) + (d1.setWidth 64 <<< 48) + (d2.setWidth 64 <<< 40) + (d3.setWidth 64 <<< 32)
  + (d4.setWidth 64 <<< 24) + (d5.setWidth 64 <<< 16) + (d6.setWidth 64 <<< 8) + d7.setWidth 64

/-- `uint32_to_be` (src/endian/endian.cpp:35-39). -/
def uint32_to_be (i : BitVec 32) : List Byte :=
  [((i >>> 24) &&& 0xff#32).setWidth 8, ((i >>> 16) &&& 0xff#32).setWidth 8,
   ((i >>> 8) &&& 0xff#32).setWidth 8, (i &&& 0xff#32).setWidth 8]

/-- `uint64_to_be` (src/endian/endian.cpp:41-47). -/
def uint64_to_be (i : BitVec 64) : List Byte :=
  [((i >>> 56) &&& 0xff#64).setWidth 8, ((i >>> 48) &&& 0xff#64).setWidth 8,
   ((i >>> 40) &&& 0xff#64).setWidth 8, ((i >>> 32) &&& 0xff#64).setWidth 8,
   ((i >>> 24) &&& 0xff#64).setWidth 8, ((i >>> 16) &&& 0xff#64).setWidth 8,
   ((i >>> 8) &&& 0xff#64).setWidth 8, (i &&& 0xff#64).setWidth 8]

/-- `be_to_uint32(std::array<4>)` (src/endian/endian.cpp:13-15), on lists of exactly 4 bytes. -/
def be_to_uint32_arr : List Byte → Option (BitVec 32)
  | [a, b, c, d] => some (be_to_uint32 a b c d)
  | _ => none

/-- `be_to_uint64(std::array<8>)` (src/endian/endian.cpp:31-33), on lists of exactly 8 bytes. -/
def be_to_uint64_arr : List Byte → Option (BitVec 64)
  | [a, b, c, d, e, f, g, h] => some (be_to_uint64 a b c d e f g h)
  | _ => none

end Mp4
