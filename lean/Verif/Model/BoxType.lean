import Verif.BitIO.Funcs

/-! # `src/box_type.cpp` -/

namespace Mp4

/-- `BoxType`: four bytes (include/shiguredo/mp4/box_type.hpp:10-26). -/
abbrev BoxType := Arr4

/-- `BoxType(const std::string&)` (src/box_type.cpp:18-26). -/
def BoxType.ofString (str : List Byte) : Except Err BoxType :=
  match str with
  | [a, b, c, d] => .ok ⟨a, b, c, d⟩
  | _ => .error (.exc "BoxType::BoxType(): invalid box type id length")

/-- `box_type_any` (src/box_type.cpp:58-61). -/
def box_type_any : BoxType := ⟨0, 0, 0, 0⟩

/-- `BoxType::matchWith` (src/box_type.cpp:50-56). -/
def BoxType.matchWith (t other : BoxType) : Bool :=
  if t = box_type_any ∨ other = box_type_any then true else t = other

/-- `std::isprint(ch) != 0 || ch == 0xa9` in the "C" locale (src/box_type.cpp:43). -/
def printableTypeByte (ch : Byte) : Bool := (0x20#8 ≤ ch && ch ≤ 0x7e#8) || ch == 0xa9#8

/-- Lower-case hexadecimal digit, as `{:02x}` prints it. -/
def hexDigit (n : Nat) : Byte := if n < 10 then BitVec.ofNat 8 (0x30 + n) else BitVec.ofNat 8 (0x57 + n)

/-- `{:02x}` -/
def hex2 (b : Byte) : List Byte := [hexDigit (b.toNat / 16), hexDigit (b.toNat % 16)]

/-- The replacement of byte 0xa9 by the UTF-8 encoding of the copyright sign (src/box_type.cpp:45). -/
def copyrightSubst (b : Byte) : List Byte := if b = 0xa9#8 then [0xc2#8, 0xa9#8] else [b]

/-- `BoxType::toString` (src/box_type.cpp:41-48), as bytes of the returned string. -/
def BoxType.toText (t : BoxType) : List Byte :=
  if printableTypeByte t.b0 && printableTypeByte t.b1 && printableTypeByte t.b2 && printableTypeByte t.b3 then
    [t.b0, t.b1, t.b2, t.b3].flatMap copyrightSubst
  else [0x30#8, 0x78#8] ++ hex2 t.b0 ++ hex2 t.b1 ++ hex2 t.b2 ++ hex2 t.b3

/-- The bytes of a type. -/
def BoxType.bytes (t : BoxType) : List Byte := [t.b0, t.b1, t.b2, t.b3]

/-- Four-character literal, for readable box types. -/
def fourcc (s : String) : BoxType :=
  match s.toUTF8.toList.map (fun c => BitVec.ofNat 8 c.toNat) with
  | [a, b, c, d] => ⟨a, b, c, d⟩
  | _ => box_type_any

end Mp4
