import Verif.Model.Box

/-!
# How many bytes each class needs

The smallest payload that the standard's syntax allows, computed from the payload's own version, flags and counts.  It says
nothing about how the fields are read.
-/

namespace Mp4
namespace Spec

/-- The `n` bytes at offset `o`, as a big-endian number. -/
def numAt (d : List Byte) (o n : Nat) : Nat := ((d.drop o).take n).foldl (fun a b => a * 256 + b.toNat) 0

/-- The version byte of a full box. -/
def version (d : List Byte) : Nat := numAt d 0 1

/-- Is one of the bits of `m` set in the 24 bits of flags of a full box? -/
def flag (d : List Byte) (m : Nat) : Bool := numAt d 1 3 &&& m != 0

/-- The end of `k` parameter sets (a two-byte length, then that many bytes) which start at offset `o`. -/
def setsEnd (d : List Byte) : Nat → Nat → Nat
  | 0, o => o
  | k + 1, o => setsEnd d k (o + 2 + numAt d o 2)

/-- The profiles for which an `avcC` box has the extension of the higher profiles. -/
def highProfiles : List Nat := [86, 100, 110, 118, 122, 128, 138, 144, 244]

/-- The bytes of a string at the beginning of `l`: up to and including the first NUL byte, or all of `l`. -/
def strLen (l : List Byte) : Nat := min ((l.takeWhile (· ≠ 0#8)).length + 1) l.length

/-- The bytes of a length field at the beginning of `l`: up to and including the first byte below 128. -/
def varLen (l : List Byte) : Nat := (l.takeWhile fun b => 128 ≤ b.toNat).length + 1

/-- The number in a length field at the beginning of `l`: seven bits of each byte, 32 bits in all. -/
def varVal (l : List Byte) : Nat := ((l.take (varLen l)).foldl (fun a b => a * 128 + b.toNat % 128) 0) % 2 ^ 32

/-- The end of the elementary stream descriptor whose tag is at offset `o`, up to where its children begin; `none` for an unknown
tag. -/
def descEnd (d : List Byte) (o : Nat) : Option Nat :=
  let b := o + 1 + varLen (d.drop (o + 1)) -- the field behind the length
  if numAt d o 1 = 3 then some ( -- ES_Descriptor: the identifier and the flags, then what the flags ask for
    let flags := numAt d (b + 2) 1
    let p := b + 3 + if flags / 128 % 2 = 1 then 2 else 0
    let q := p + if flags / 64 % 2 = 1 then 1 + numAt d p 1 else 0
    q + if flags / 32 % 2 = 1 then 2 else 0)
  else if numAt d o 1 = 4 then some (b + 13) -- DecoderConfigDescriptor
  else if numAt d o 1 = 5 ∨ numAt d o 1 = 6 then some (b + varVal (d.drop (o + 1))) -- DecoderSpecificInfo, SLConfigDescriptor
  else none

/-- The end of the at most `n` descriptors that start at offset `o`; an unknown tag is the last. -/
def descsEnd (d : List Byte) : Nat → Nat → Nat
  | 0, o => o
  | n + 1, o => if d.length ≤ o then o else match descEnd d o with
    | some e => descsEnd d n e
    | none => o + 1

/-- The `n` alternative startup entries that start at offset `o`, when the length of an entry is `len`, or, where that is `none`, is
in front of it: the end of the last, and `true`; or the end of the sample offsets of the first entry whose length is not that of its
sample offsets and a whole number of pairs, and `false`.  A length counts modulo 2^29. -/
def startupEnd (d : List Byte) (len : Option Nat) : Nat → Nat → Nat × Bool
  | 0, o => (o, true)
  | n + 1, o =>
    let b := if len.isNone then o + 4 else o
    let l := len.getD (numAt d o 4) % 2 ^ 29
    let offsets := 4 + 4 * numAt d b 2
    if l < offsets ∨ l % 4 ≠ 0 then (b + offsets, false) else startupEnd d len n (b + l)

/-- The alternative startup entries of an `sgpd` box; `junk` is the default length a box without one happens to have. -/
def startup (d : List Byte) (junk : Nat) : Nat × Bool :=
  startupEnd d (if version d = 1 then (if numAt d 8 4 = 0 then none else some (numAt d 8 4)) else some junk) (numAt d 12 4) 16

/-- The size of one entry of an `sgpd` box, without its length, by grouping type; `alst` is not of one size. -/
def groupEntry (t : Nat) : Option Nat :=
  if t = 0x726f6c6c ∨ t = 0x70726f6c then some 2 -- "roll", "prol"
  else if t = 0x72617020 ∨ t = 0x74656c65 then some 1 -- "rap ", "tele"
  else none

/-- The number of bytes that a payload `d` of class `k` must have; `none` for the classes whose acceptance does not depend on the
length alone. -/
def needed (t : BoxType) (wave : Bool) (d : List Byte) : Kind → Option Nat
  | .empty => some 0
  | .btrt => some 12
  | .pasp => some 8
  | .fiel => some 2
  | .smhd => some 8
  | .vmhd => some 12
  | .mfhd => some 8
  | .mfro => some 8
  | .dref => some 8
  | .stsd => some 8
  | .trex => some 24
  | .metaBox => some 4
  | .visual => some 78
  | .mvhd => some (if version d = 0 then 100 else 112)
  | .tkhd => some (if version d = 0 then 84 else 96)
  | .mdhd => some (if version d = 0 then 24 else 36)
  | .mehd => some (if version d = 0 then 8 else 12)
  | .tfdt => some (if version d = 0 then 8 else 12)
  | .elst => some (8 + numAt d 4 4 * (if version d = 0 then 12 else 20))
  | .sidx => some (if version d = 0 then 24 + 12 * numAt d 22 2 else 32 + 12 * numAt d 30 2)
  | .stts => some (8 + 8 * numAt d 4 4)
  | .ctts => some (8 + 8 * numAt d 4 4)
  | .stsc => some (8 + 12 * numAt d 4 4)
  | .stco => some (8 + 4 * numAt d 4 4)
  | .stss => some (8 + 4 * numAt d 4 4)
  | .co64 => some (8 + 8 * numAt d 4 4)
  | .stsz => some (if numAt d 4 4 = 0 then 12 + 4 * numAt d 8 4 else 12)
  | .sbgp => some (if version d = 0 then 12 + 8 * numAt d 8 4 else 16 + 8 * numAt d 12 4)
  | .tfhd => some (8 + (if flag d 0x1 then 8 else 0) + (if flag d 0x2 then 4 else 0) + (if flag d 0x8 then 4 else 0) +
      (if flag d 0x10 then 4 else 0) + (if flag d 0x20 then 4 else 0))
  | .trun => some (8 + (if flag d 0x1 then 4 else 0) + (if flag d 0x4 then 4 else 0) + numAt d 4 4 *
      ((if flag d 0x100 then 4 else 0) + (if flag d 0x200 then 4 else 0) + (if flag d 0x400 then 4 else 0) +
        (if flag d 0x800 then 4 else 0)))
  -- the three length fields are the last six bits of byte 11
  | .tfra => some (16 + numAt d 12 4 * ((if version d = 0 then 8 else 16) +
      (numAt d 11 1 / 16 % 4 + 1) + (numAt d 11 1 / 4 % 4 + 1) + (numAt d 11 1 % 4 + 1)))
  | .vpcC => some (if version d = 0 then 10 else 12 + numAt d 10 2)
  | .dOps => some (if numAt d 10 1 = 0 then 11 else 13 + numAt d 1 1)
  | .pssh => some (if version d = 0 then 24 + numAt d 20 4
      else 28 + 16 * numAt d 20 4 + numAt d (24 + 16 * numAt d 20 4) 4)
  -- the classes that take all that is left
  | .opaq => some d.length
  | .sdtp => some (max 4 d.length)
  | .av1C => some (max 4 d.length)
  | .data => some (max 8 d.length)
  | .colr => some (if numAt d 0 4 = 0x6e636c78 then 11 else max 4 d.length)
  | .audio => some (
      if wave then d.length
      else if t = fourcc "Opus" ∨ numAt d 8 2 = 0 ∨ d.length ≤ 28 then 28
      else if numAt d 8 2 = 1 then 44
      else if numAt d 8 2 = 2 then 64
      else d.length)
  | .avcC => some (
      let e := setsEnd d (numAt d 5 1 % 32) 6
      let f := setsEnd d (numAt d e 1) (e + 1)
      if numAt d 1 1 ∈ highProfiles ∧ f + 4 ≤ d.length then setsEnd d (numAt d (f + 3) 1) (f + 4) else f)
  | .url => some (if flag d 1 then 4 else 4 + strLen (d.drop 4))
  | .urn => some (
      if flag d 1 then 4
      else
        let a := strLen ((d.drop 4).take (d.length - 5))
        max 5 (4 + a + strLen (d.drop (4 + a))))
  | .emsg => some (
      if version d = 0 then
        let a := strLen (d.drop 4)
        max (4 + a + strLen (d.drop (4 + a)) + 16) d.length
      else max 24 d.length)
  | .iods => some (5 + varLen (d.drop 5) + 7)
  | .sgpd =>
      if numAt d 4 4 = 0x616c7374 then none -- "alst"
      else match groupEntry (numAt d 4 4) with
        | some n => some (16 + numAt d 12 4 * (n + if version d = 1 ∧ numAt d 8 4 = 0 then 4 else 0))
        | none => some 12
  | .esds => some (descsEnd d d.length 4)
  | .hdlr | .ftyp => none

/-- The bytes of the name of a handler box with payload `d` reach exactly to its end: as a counted string, which only a box with
`pre_defined` different from 0 has, or as a string that ends with the box's only NUL byte or without one. -/
def hdlrNameFills (d : List Byte) : Prop :=
  (numAt d 4 4 ≠ 0 ∧ 26 ≤ d.length ∧ numAt d 24 1 = d.length - 25) ∨ strLen (d.drop 24) = d.length - 24

end Spec
end Mp4
