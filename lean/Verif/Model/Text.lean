import Verif.Model.BoxType

/-! # The part of the `fmt` library used for dumps

`{fmt}` 9.1.0 (CMakeLists.txt:16) is not part of the repository; this is the behaviour of `fmt::format` that the model
assumes, for the presentation types and argument types that occur in `src/`.  Texts are lists of bytes. -/

namespace Mp4

/-- The bytes of a string literal: a macro, so that the literal is a list of bytes for Lean's kernel. -/
syntax:max "b!" str : term

open Lean in
macro_rules
  | `(b! $s) => do
    let bytes := s.getString.toUTF8.toList
    let elems ← bytes.mapM fun (c : UInt8) => `(($(quote c.toNat) : BitVec 8))
    `(([$elems.toArray,*] : List (BitVec 8)))

/-- The digits of `n` in base `b` (at least one), most significant first, as numbers; `fuel > n` suffices. -/
def digitsAux (b : Nat) : Nat → Nat → List Nat
  | 0, _ => []
  | fuel + 1, n => if n < b then [n] else digitsAux b fuel (n / b) ++ [n % b]

/-- The digits of `n` in base `b`. -/
def digits (b n : Nat) : List Nat := digitsAux b (n + 1) n

/-- `{}` of an unsigned integer. -/
def dec (n : Nat) : List Byte := (digits 10 n).map hexDigit

/-- A minus sign for negative numbers. -/
def sign (neg : Bool) : List Byte := if neg then [0x2d#8] else []

/-- `{:#x}` of a number. -/
def hexNat (n : Nat) : List Byte := [0x30#8, 0x78#8] ++ (digits 16 n).map hexDigit

/-- The integer next to `num / den`, ties to even. -/
def roundEven (num den : Nat) : Nat :=
  let q := num / den
  let r := num % den
  if 2 * r > den || (2 * r == den && q % 2 == 1) then q + 1 else q

/-- `n` in exactly `w` decimal digits (the low ones). -/
def decPad : Nat → Nat → List Byte
  | 0, _ => []
  | w + 1, n => decPad w (n / 10) ++ [hexDigit (n % 10)]

/-- `{:.pf}` of the number `num / den`, which is exact in floating point (`den` a power of two): correctly rounded, ties to
even, the sign is that of the number even when it rounds to zero. -/
def fixedText (places : Nat) (num : Int) (den : Nat) : List Byte :=
  let units := roundEven (num.natAbs * 10 ^ places) den
  sign (num < 0) ++ dec (units / 10 ^ places) ++ [0x2e#8] ++ decPad places units

/-- How a replacement field `{…}` presents its argument. -/
inductive Pres where
  /-- `{}` -/
  | plain
  /-- `{:#x}` -/
  | hex
  /-- `{:02x}` -/
  | hex2
  /-- `{:c}` -/
  | char
  /-- `{:.pf}` -/
  | fixed (places : Nat)
  deriving DecidableEq, Repr

/-- A piece of a format string. -/
inductive Seg where
  | lit (text : List Byte)
  | field (p : Pres)

/-- An argument of `fmt::format`. -/
inductive Arg where
  /-- an unsigned integer (of any width; `uint8_t` is printed as a number) -/
  | u (n : Nat)
  /-- a signed integer -/
  | i (n : Int)
  | bool (b : Bool)
  /-- `std::string`, `std::string_view` -/
  | str (s : List Byte)
  /-- a `float` or `double` with this exact value -/
  | ratio (num : Int) (den : Nat)
  /-- `fmt::join(range, sep)` -/
  | join (elems : List Arg) (sep : List Byte)

/-- The text of one argument that is not a `join`; combinations `fmt` rejects at compile time give the empty text. -/
def Arg.scalar : Pres → Arg → List Byte
  | .plain, .u n => dec n
  | .plain, .i n => sign (n < 0) ++ dec n.natAbs
  | .plain, .bool b => if b then b!"true" else b!"false"
  | .plain, .str s => s
  | .hex, .u n => hexNat n
  | .hex, .i n => sign (n < 0) ++ hexNat n.natAbs
  | .hex2, .u n => Mp4.hex2 (BitVec.ofNat 8 n)
  | .char, .u n => [BitVec.ofNat 8 n]
  | .fixed p, .ratio num den => fixedText p num den
  | _, _ => []

/-- Texts with a separator between neighbours. -/
def joinSep (sep : List Byte) : List (List Byte) → List Byte
  | [] => []
  | [x] => x
  | x :: y :: r => x ++ sep ++ joinSep sep (y :: r)

/-- The text of one argument: the elements of a `join` are presented like a single argument. -/
def Arg.text (p : Pres) : Arg → List Byte
  | .join elems sep => joinSep sep (elems.map (Arg.scalar p))
  | a => a.scalar p

/-- `fmt::format`. -/
def format : List Seg → List Arg → List Byte
  | [], _ => []
  | .lit t :: segs, args => t ++ format segs args
  | .field p :: segs, a :: args => a.text p ++ format segs args
  | .field _ :: _, [] => []

/-- Split a format string into literal text (left) and replacement fields (right); used by the macro only. -/
private def parseFmt : Nat → List Char → List Char → List (List Char ⊕ List Char)
  | _, [], acc => if acc.isEmpty then [] else [.inl acc.reverse]
  | fuel + 1, '{' :: '{' :: r, acc => parseFmt fuel r ('{' :: acc)
  | fuel + 1, '}' :: '}' :: r, acc => parseFmt fuel r ('}' :: acc)
  | fuel + 1, '{' :: r, acc =>
    (if acc.isEmpty then [] else [.inl acc.reverse]) ++
      .inr (r.takeWhile (· != '}')) :: parseFmt fuel ((r.dropWhile (· != '}')).drop 1) []
  | fuel + 1, c :: r, acc => parseFmt fuel r (c :: acc)
  | 0, _ :: _, _ => []

/-- A format string literal, as its pieces. -/
syntax:max "fmt!" str : term

open Lean in
macro_rules
  | `(fmt! $s) => do
    let chars := s.getString.toList
    let pieces := parseFmt (chars.length + 1) chars []
    let elems ← pieces.mapM fun
      | .inl t => `(Seg.lit (b! $(Syntax.mkStrLit (String.ofList t))))
      | .inr f => match String.ofList f with
        | "" => `(Seg.field Pres.plain)
        | ":#x" => `(Seg.field Pres.hex)
        | ":02x" => `(Seg.field Pres.hex2)
        | ":c" => `(Seg.field Pres.char)
        | ":.4f" => `(Seg.field (Pres.fixed 4))
        | ":.2f" => `(Seg.field (Pres.fixed 2))
        | _ => Macro.throwUnsupported
    `(([$elems.toArray,*] : List Seg))

end Mp4
