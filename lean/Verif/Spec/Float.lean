import Mathlib.Algebra.Order.Field.Power
import Mathlib.Algebra.Order.Floor.Semiring
import Mathlib.Data.Rat.Floor
import Verif.Core.Bits

/-! # Specification: IEEE 754 rounding, over the rational numbers -/

namespace Mp4.Spec

/-- `v` is a non-negative number with at most `p` significant bits and an exponent of at least `emin`. -/
def Representable (p : ℕ) (emin : ℤ) (v : ℚ) : Prop := ∃ m : ℕ, ∃ e : ℤ, m < 2 ^ p ∧ emin ≤ e ∧ v = m * 2 ^ e

/-- `v` is `x` rounded to nearest, ties to even: no representable number is nearer, and of two equally near ones (they are neighbours)
`v` is the one that is an even multiple of their distance. -/
def Rounded (p : ℕ) (emin : ℤ) (x v : ℚ) : Prop :=
  Representable p emin v ∧ (∀ w, Representable p emin w → |v - x| ≤ |w - x|) ∧
  ∀ w, Representable p emin w → w ≠ v → |w - x| = |v - x| → ∃ n : ℕ, v = 2 * n * |w - v|

/-- Rounded to a `float` (binary32, the largest finite number aside). -/
def RoundedFloat : ℚ → ℚ → Prop := Rounded 24 (-149)

/-- The fields of a `float`'s representation. -/
def floatExponent (b : BitVec 32) : ℕ := b.toNat / 2 ^ 23 % 2 ^ 8
def floatFraction (b : BitVec 32) : ℕ := b.toNat % 2 ^ 23

/-- Not infinite, not a NaN. -/
def FiniteFloat (b : BitVec 32) : Prop := floatExponent b ≠ 255

/-- The magnitude of a finite `float` (IEEE 754, 3.4). -/
def floatValue (b : BitVec 32) : ℚ :=
  if floatExponent b = 0 then 2 ^ (-126 : ℤ) * ((floatFraction b : ℚ) / 2 ^ 23)
  else 2 ^ ((floatExponent b : ℤ) - 127) * (1 + (floatFraction b : ℚ) / 2 ^ 23)

end Mp4.Spec
