import Verif.BitIO.Funcs

/-!
# What "round trip" means

Specification vocabulary used by the property theorems.
-/

namespace Mp4

/-- Encoder `m` and decoder `p` agree on the value `a`: the encoder succeeds, the number of bits it
reports is the number it wrote, and the decoder, started anywhere those bits are followed by arbitrary other bits
(in a stream with arbitrary content `d`), returns `a`, reports the same number of bits and stops
exactly behind them. -/
def RoundTrip {α : Type} (m : W Nat) (p : R (Nat × α)) (a : α) : Prop :=
  m.res = .ok m.out.length ∧
  ∀ (d : List Byte) (rest : List Bool), p.run d (m.out ++ rest) = .ok ((m.out.length, a), rest)

/-- Same, for decoders that consume everything up to the end of their stream: nothing follows. -/
def RoundTripEnd {α : Type} (m : W Nat) (p : R (Nat × α)) (a : α) : Prop :=
  m.res = .ok m.out.length ∧
  ∀ (d : List Byte), p.run d m.out = .ok ((m.out.length, a), [])

/-- The last `width` bits of a byte vector. -/
def lastBits (data : List Byte) (width : Nat) : List Bool :=
  (bytesBits data).drop (8 * data.length - width)

/-- Perform a sequence of `readBits` calls with the given widths. -/
def Reader.readMany (r : Reader) : List Nat → Except Err (List (List Byte) × Reader)
  | [] => .ok ([], r)
  | n :: ns =>
    match r.readBits n with
    | .error e => .error e
    | .ok (v, r) =>
      match r.readMany ns with
      | .error e => .error e
      | .ok (vs, r) => .ok (v :: vs, r)

/-- `v` is the vector `readBits` must return for the bits `bs`: right aligned in the least number of bytes. -/
def RightAligned (v : List Byte) (bs : List Bool) : Prop :=
  v.length = (bs.length + 7) / 8 ∧ bytesBits v = List.replicate (8 * v.length - bs.length) false ++ bs

/-- The vectors `vs` are, one for one, the right aligned pieces `bss`. -/
def AllAligned : List (List Byte) → List (List Bool) → Prop
  | [], [] => True
  | v :: vs, bs :: bss => RightAligned v bs ∧ AllAligned vs bss
  | _, _ => False

end Mp4
