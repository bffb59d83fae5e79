import Mathlib.Tactic.Linarith
import Mathlib.Tactic.Positivity
import Mathlib.Tactic.FieldSimp
import Mathlib.Tactic.Ring
import Mathlib.Data.Int.Log
import Mathlib.Algebra.Order.Floor.Semifield
import Verif.Model.Float
import Verif.Spec.Float

namespace Mp4

/-- The value of a binary number. -/
def Bin.val (x : Bin) : ℚ := x.m * 2 ^ x.e

theorem Bin.val_nonneg (x : Bin) : 0 ≤ x.val := by unfold Bin.val; positivity

theorem Bin.trunc_eq (x : Bin) : x.trunc = ⌊x.val⌋₊ := by
  unfold Bin.trunc Bin.val
  split
  · rename_i h
    obtain ⟨n, hn⟩ : ∃ n : ℕ, -x.e = n := ⟨(-x.e).toNat, by omega⟩
    have : x.e = -(n : ℤ) := by omega
    rw [this, neg_neg, Int.toNat_natCast, zpow_neg, zpow_natCast, ← div_eq_mul_inv]
    have := Nat.floor_div_eq_div (K := ℚ) x.m (2 ^ n)
    rw [← this]; push_cast; rfl
  · rename_i h
    obtain ⟨n, hn⟩ : ∃ n : ℕ, x.e = n := ⟨x.e.toNat, by omega⟩
    rw [hn, Int.toNat_natCast, zpow_natCast]
    have : ((x.m : ℚ) * 2 ^ n) = ((x.m * 2 ^ n : ℕ) : ℚ) := by push_cast; rfl
    rw [this, Nat.floor_natCast]

/-! ### Rounding to an integer -/

/-- With `y = m / 2^k` between `q` and `q + 1`. -/
theorem rne_cases (m k : ℕ) : ∃ (q : ℕ) (f : ℚ), (m : ℚ) / 2 ^ k = q + f ∧ q = m / 2 ^ k ∧ 0 ≤ f ∧ f < 1 ∧
    ((rne m k = q ∧ f < 1 / 2) ∨ (rne m k = q ∧ f = 1 / 2 ∧ q % 2 = 0) ∨ (rne m k = q + 1 ∧ f > 1 / 2) ∨
     (rne m k = q + 1 ∧ f = 1 / 2 ∧ q % 2 = 1)) := by
  have hp : (0 : ℚ) < 2 ^ k := by positivity
  refine ⟨m / 2 ^ k, ((m % 2 ^ k : ℕ) : ℚ) / 2 ^ k, ?_, rfl, by positivity, ?_, ?_⟩
  · have := Nat.div_add_mod m (2 ^ k)
    have h2 : (m : ℚ) = 2 ^ k * ((m / 2 ^ k : ℕ) : ℚ) + ((m % 2 ^ k : ℕ) : ℚ) := by exact_mod_cast this.symm
    rw [h2]
    field_simp
  · rw [div_lt_one hp]
    exact_mod_cast Nat.mod_lt m (by positivity)
  · have e1 : ∀ r : ℕ, (r : ℚ) / 2 ^ k < 1 / 2 ↔ 2 * r < 2 ^ k := by
      intro r
      rw [div_lt_div_iff₀ hp (by norm_num)]
      constructor
      · intro h; have : r * 2 < 1 * 2 ^ k := by exact_mod_cast h
        omega
      · intro h; have : r * 2 < 1 * 2 ^ k := by omega
        exact_mod_cast this
    have e2 : ∀ r : ℕ, (r : ℚ) / 2 ^ k = 1 / 2 ↔ 2 * r = 2 ^ k := by
      intro r
      rw [div_eq_div_iff hp.ne' (by norm_num)]
      constructor
      · intro h; have : r * 2 = 1 * 2 ^ k := by exact_mod_cast h
        omega
      · intro h; have : r * 2 = 1 * 2 ^ k := by omega
        exact_mod_cast this
    have e3 : ∀ r : ℕ, (r : ℚ) / 2 ^ k > 1 / 2 ↔ 2 * r > 2 ^ k := by
      intro r
      constructor
      · intro h
        by_contra hc
        rcases Nat.lt_or_eq_of_le (Nat.le_of_not_lt hc) with h1 | h1
        · have := (e1 r).mpr h1; linarith
        · have := (e2 r).mpr h1; linarith
      · intro h
        by_contra hc
        rcases lt_or_eq_of_le (not_lt.mp hc) with h1 | h1
        · have := (e1 r).mp h1; omega
        · have := (e2 r).mp h1; omega
    unfold rne
    rw [e1, e2, e3]
    generalize m % 2 ^ k = r
    generalize m / 2 ^ k = q
    generalize 2 ^ k = t
    split <;> omega

/-- Against every other integer. -/
theorem rne_nearest (m k j : ℕ) : |(rne m k : ℚ) - m / 2 ^ k| ≤ |(j : ℚ) - m / 2 ^ k| ∧
    (j ≠ rne m k → |(j : ℚ) - m / 2 ^ k| = |(rne m k : ℚ) - m / 2 ^ k| → rne m k % 2 = 0 ∧ |(j : ℚ) - rne m k| = 1) := by
  obtain ⟨q, f, h1, -, h2, h3, h4⟩ := rne_cases m k
  rw [h1]
  have hj : j + 1 ≤ q ∨ j = q ∨ j = q + 1 ∨ q + 2 ≤ j := by omega
  have c1 : j + 1 ≤ q → (j : ℚ) + 1 ≤ q := fun h => by exact_mod_cast h
  have c2 : q + 2 ≤ j → (q : ℚ) + 2 ≤ j := fun h => by exact_mod_cast h
  rcases h4 with ⟨e, g⟩ | ⟨e, g, p⟩ | ⟨e, g⟩ | ⟨e, g, p⟩ <;> rw [e]
  · have a1 : |(q : ℚ) - (q + f)| = f := by rw [show (q : ℚ) - (q + f) = -f by ring, abs_neg, abs_of_nonneg h2]
    rw [a1]
    rcases hj with h | rfl | rfl | h
    · have := c1 h
      have a2 : |(j : ℚ) - (q + f)| = q + f - j := by rw [abs_sub_comm]; exact abs_of_nonneg (by linarith)
      rw [a2]; exact ⟨by linarith, fun _ _ => by linarith⟩
    · rw [a1]; exact ⟨le_refl _, fun h => absurd rfl h⟩
    · have a2 : |((q + 1 : ℕ) : ℚ) - (q + f)| = 1 - f := by push_cast; rw [show (q : ℚ) + 1 - (q + f) = 1 - f by ring]; exact abs_of_nonneg (by linarith)
      rw [a2]; exact ⟨by linarith, fun _ _ => by linarith⟩
    · have := c2 h
      have a2 : |(j : ℚ) - (q + f)| = j - (q + f) := abs_of_nonneg (by linarith)
      rw [a2]; exact ⟨by linarith, fun _ _ => by linarith⟩
  · have a1 : |(q : ℚ) - (q + f)| = f := by rw [show (q : ℚ) - (q + f) = -f by ring, abs_neg, abs_of_nonneg h2]
    rw [a1]
    rcases hj with h | rfl | rfl | h
    · have := c1 h
      have a2 : |(j : ℚ) - (q + f)| = q + f - j := by rw [abs_sub_comm]; exact abs_of_nonneg (by linarith)
      rw [a2]; exact ⟨by linarith, fun _ _ => by linarith⟩
    · rw [a1]; exact ⟨le_refl _, fun h => absurd rfl h⟩
    · have a2 : |((q + 1 : ℕ) : ℚ) - (q + f)| = 1 - f := by push_cast; rw [show (q : ℚ) + 1 - (q + f) = 1 - f by ring]; exact abs_of_nonneg (by linarith)
      rw [a2]; exact ⟨by linarith, fun _ _ => ⟨p, by push_cast; rw [show (q : ℚ) + 1 - q = 1 by ring]; exact abs_one⟩⟩
    · have := c2 h
      have a2 : |(j : ℚ) - (q + f)| = j - (q + f) := abs_of_nonneg (by linarith)
      rw [a2]; exact ⟨by linarith, fun _ _ => by linarith⟩
  · have a1 : |((q + 1 : ℕ) : ℚ) - (q + f)| = 1 - f := by push_cast; rw [show (q : ℚ) + 1 - (q + f) = 1 - f by ring]; exact abs_of_nonneg (by linarith)
    rw [a1]
    rcases hj with h | rfl | rfl | h
    · have := c1 h
      have a2 : |(j : ℚ) - (q + f)| = q + f - j := by rw [abs_sub_comm]; exact abs_of_nonneg (by linarith)
      rw [a2]; exact ⟨by linarith, fun _ _ => by linarith⟩
    · have a2 : |(j : ℚ) - (j + f)| = f := by rw [show (j : ℚ) - (j + f) = -f by ring, abs_neg, abs_of_nonneg h2]
      rw [a2]; exact ⟨by linarith, fun _ _ => by linarith⟩
    · rw [a1]; exact ⟨le_refl _, fun h => absurd rfl h⟩
    · have := c2 h
      have a2 : |(j : ℚ) - (q + f)| = j - (q + f) := abs_of_nonneg (by linarith)
      rw [a2]; exact ⟨by linarith, fun _ _ => by linarith⟩
  · have a1 : |((q + 1 : ℕ) : ℚ) - (q + f)| = 1 - f := by push_cast; rw [show (q : ℚ) + 1 - (q + f) = 1 - f by ring]; exact abs_of_nonneg (by linarith)
    rw [a1]
    rcases hj with h | rfl | rfl | h
    · have := c1 h
      have a2 : |(j : ℚ) - (q + f)| = q + f - j := by rw [abs_sub_comm]; exact abs_of_nonneg (by linarith)
      rw [a2]; exact ⟨by linarith, fun _ _ => by linarith⟩
    · have a2 : |(j : ℚ) - (j + f)| = f := by rw [show (j : ℚ) - (j + f) = -f by ring, abs_neg, abs_of_nonneg h2]
      rw [a2]; exact ⟨by linarith, fun _ _ => ⟨by omega, by push_cast; rw [show (j : ℚ) - (j + 1) = -1 by ring, abs_neg, abs_one]⟩⟩
    · rw [a1]; exact ⟨le_refl _, fun h => absurd rfl h⟩
    · have := c2 h
      have a2 : |(j : ℚ) - (q + f)| = j - (q + f) := abs_of_nonneg (by linarith)
      rw [a2]; exact ⟨by linarith, fun _ _ => by linarith⟩

/-! ### Rounding -/

theorem log2_lt (m : ℕ) : m < 2 ^ (m.log2 + 1) := Nat.lt_log2_self

theorem log2_le {m : ℕ} (h : m ≠ 0) : 2 ^ m.log2 ≤ m := Nat.log2_self_le h

theorem zpow_split (a b : ℤ) : (2 : ℚ) ^ (a + b) = 2 ^ a * 2 ^ b := zpow_add₀ (by norm_num) a b

/-- A representable number is a multiple of a unit of at least 2^emin, or below 2^(p-1) units. -/
theorem representable_unit {p : ℕ} {emin E : ℤ} {w : ℚ} (hw : Spec.Representable p emin w) :
    (∃ j : ℕ, w = j * 2 ^ E) ∨ (emin < E ∧ 2 * w < 2 ^ p * 2 ^ E) := by
  obtain ⟨m, e, h1, h2, rfl⟩ := hw
  by_cases he : E ≤ e
  · left
    obtain ⟨n, hn⟩ : ∃ n : ℕ, e = n + E := ⟨(e - E).toNat, by omega⟩
    refine ⟨m * 2 ^ n, ?_⟩
    rw [hn, zpow_split, zpow_natCast]; push_cast; ring
  · right
    refine ⟨by omega, ?_⟩
    have h3 : (2 : ℚ) ^ (e + 1) ≤ 2 ^ E := zpow_le_zpow_right₀ (by norm_num) (by omega)
    have h4 : (m : ℚ) < 2 ^ p := by exact_mod_cast h1
    have h5 : (0 : ℚ) < 2 ^ E := by positivity
    rw [zpow_split] at h3
    have h6 : (0 : ℚ) < 2 ^ e := by positivity
    calc 2 * ((m : ℚ) * 2 ^ e) = m * (2 ^ e * 2 ^ (1 : ℤ)) := by rw [zpow_one]; ring
      _ ≤ m * 2 ^ E := by apply mul_le_mul_of_nonneg_left h3; positivity
      _ < 2 ^ p * 2 ^ E := by apply mul_lt_mul_of_pos_right h4 h5

theorem rne_zero (m : ℕ) : rne m 0 = m := by
  unfold rne
  rw [Nat.pow_zero, Nat.mod_one, Nat.div_one]
  norm_num

theorem rne_le (m k : ℕ) : rne m k ≤ m / 2 ^ k + 1 := by unfold rne; split <;> omega
theorem le_rne (m k : ℕ) : m / 2 ^ k ≤ rne m k := by unfold rne; split <;> omega

/-- The rounding of the model is IEEE 754 rounding. -/
theorem Bin.round_rounded (p : ℕ) (hp : 1 ≤ p) (emin : ℤ) (x : Bin) : Spec.Rounded p emin x.val (x.round p emin).val := by
  unfold Bin.round
  dsimp only
  generalize hk : max (x.m.log2 + 1 - p) (emin - x.e).toNat = k
  rcases Nat.eq_zero_or_pos k with hk0 | hk0
  · subst hk0
    have e0 : (⟨rne x.m 0, x.e + (0 : ℕ)⟩ : Bin).val = x.val := by unfold Bin.val; rw [rne_zero]; norm_num
    rw [e0]
    refine ⟨⟨x.m, x.e, ?_, by omega, rfl⟩, ?_, ?_⟩
    · exact Nat.lt_of_lt_of_le (log2_lt x.m) (Nat.pow_le_pow_right (by norm_num) (by omega))
    · intro w _; rw [sub_self, abs_zero]; exact abs_nonneg _
    · intro w _ h1 h2; rw [sub_self, abs_zero, abs_eq_zero, sub_eq_zero] at h2; exact absurd h2 h1
  · -- the unit
    have hu : (0 : ℚ) < 2 ^ (x.e + (k : ℤ)) := by positivity
    have hx : x.val = (x.m / 2 ^ k) * 2 ^ (x.e + (k : ℤ)) := by
      unfold Bin.val; rw [zpow_split, zpow_natCast]; field_simp
    have hq1 : x.m / 2 ^ k < 2 ^ p := by
      rw [Nat.div_lt_iff_lt_mul (by positivity), ← Nat.pow_add]
      exact Nat.lt_of_lt_of_le (log2_lt x.m) (Nat.pow_le_pow_right (by norm_num) (by omega))
    have hq2 : emin < x.e + (k : ℤ) → 2 ^ p ≤ 2 * (x.m / 2 ^ k) := by
      intro h
      have hk1 : k = x.m.log2 + 1 - p := by omega
      have hm : x.m ≠ 0 := by
        intro h0; rw [h0, Nat.log2_zero] at hk1; omega
      have h1 : 2 ^ (p - 1) ≤ x.m / 2 ^ k := by
        rw [Nat.le_div_iff_mul_le (by positivity), ← Nat.pow_add]
        exact Nat.le_trans (Nat.pow_le_pow_right (by norm_num) (by omega)) (log2_le hm)
      have h2 : 2 ^ p = 2 * 2 ^ (p - 1) := by rw [← Nat.pow_succ']; congr 1; omega
      omega
    have hge : emin ≤ x.e + (k : ℤ) := by omega
    generalize hE : x.e + (k : ℤ) = E at *
    have hv : (⟨rne x.m k, E⟩ : Bin).val = rne x.m k * 2 ^ E := rfl
    rw [hv, hx]
    have hd : ∀ a : ℚ, |a * 2 ^ E - (x.m / 2 ^ k) * 2 ^ E| = |a - x.m / 2 ^ k| * 2 ^ E := by
      intro a; rw [← sub_mul, abs_mul, abs_of_pos hu]
    -- a number below all multiples in question
    have hlow : ∀ w : ℚ, 2 * w < 2 ^ p * 2 ^ E → emin < E →
        |(rne x.m k : ℚ) * 2 ^ E - (x.m / 2 ^ k) * 2 ^ E| < |w - (x.m / 2 ^ k) * 2 ^ E| := by
      intro w h1 h2
      have h3 := hq2 h2
      obtain ⟨q, f, hf, hq, hf1, hf2, -⟩ := rne_cases x.m k
      rw [← hq] at h3
      have h4 : (2 : ℚ) ^ p ≤ 2 * q := by exact_mod_cast h3
      have h5 : w < q * 2 ^ E := by
        have := mul_le_mul_of_nonneg_right h4 hu.le
        linarith
      have h6 := (rne_nearest x.m k q).1
      rw [hd]
      refine lt_of_le_of_lt (mul_le_mul_of_nonneg_right h6 hu.le) ?_
      rw [hf]
      have a1 : |(q : ℚ) - (q + f)| = f := by rw [show (q : ℚ) - (q + f) = -f by ring, abs_neg, abs_of_nonneg hf1]
      rw [a1, abs_sub_comm, abs_of_nonneg (by nlinarith)]
      nlinarith
    refine ⟨?_, ?_, ?_⟩
    · rcases Nat.lt_or_ge (rne x.m k) (2 ^ p) with h | h
      · exact ⟨rne x.m k, E, h, hge, rfl⟩
      · have h1 := rne_le x.m k
        have h2 : rne x.m k = 2 ^ p := by omega
        refine ⟨2 ^ (p - 1), E + 1, Nat.pow_lt_pow_right (by norm_num) (by omega), by omega, ?_⟩
        rw [h2, zpow_split, zpow_one]
        have h3 : (2 : ℚ) ^ p = 2 ^ (p - 1) * 2 := by rw [← pow_succ]; congr 1; omega
        push_cast
        rw [h3]; ring
    · intro w hw
      rcases representable_unit (E := E) hw with ⟨j, rfl⟩ | ⟨h1, h2⟩
      · rw [hd, hd]; exact mul_le_mul_of_nonneg_right (rne_nearest x.m k j).1 hu.le
      · exact (hlow w h2 h1).le
    · intro w hw hne ht
      rcases representable_unit (E := E) hw with ⟨j, rfl⟩ | ⟨h1, h2⟩
      · rw [hd, hd] at ht
        have ht := mul_right_cancel₀ hu.ne' ht
        have hj : j ≠ rne x.m k := by rintro rfl; exact hne rfl
        obtain ⟨h3, h4⟩ := (rne_nearest x.m k j).2 hj ht
        refine ⟨rne x.m k / 2, ?_⟩
        rw [← sub_mul, abs_mul, abs_of_pos hu, h4, one_mul]
        have h5 : 2 * (rne x.m k / 2) = rne x.m k := by omega
        have h6 : (2 : ℚ) * ((rne x.m k / 2 : ℕ) : ℚ) = (rne x.m k : ℚ) := by exact_mod_cast h5
        rw [h6]
      · have := hlow w h2 h1
        linarith

/-! ### Consequences of the specification -/

theorem Spec.Rounded.unique {p : ℕ} {emin : ℤ} {x v w : ℚ} (hv : Spec.Rounded p emin x v) (hw : Spec.Rounded p emin x w) : v = w := by
  by_contra hne
  have h := le_antisymm (hv.2.1 w hw.1) (hw.2.1 v hv.1)
  obtain ⟨a, ha⟩ := hv.2.2 w hw.1 (Ne.symm hne) h.symm
  obtain ⟨b, hb⟩ := hw.2.2 v hv.1 hne h
  rw [abs_sub_comm] at ha
  have hd : (0 : ℚ) < |v - w| := abs_pos.mpr (sub_ne_zero.mpr hne)
  rcases abs_choice (v - w) with h1 | h1
  · have h2 : (2 * (a : ℚ) - 2 * b - 1) * |v - w| = 0 := by linarith
    rcases mul_eq_zero.mp h2 with h3 | h3
    · have : (2 * (a : ℤ) - 2 * b - 1) = 0 := by exact_mod_cast h3
      omega
    · exact hd.ne' h3
  · have h2 : (2 * (a : ℚ) - 2 * b + 1) * |v - w| = 0 := by linarith
    rcases mul_eq_zero.mp h2 with h3 | h3
    · have : (2 * (a : ℤ) - 2 * b + 1) = 0 := by exact_mod_cast h3
      omega
    · exact hd.ne' h3

theorem Spec.Rounded.mono {p : ℕ} {emin : ℤ} {x y v w : ℚ} (hv : Spec.Rounded p emin x v) (hw : Spec.Rounded p emin y w) (h : x ≤ y) :
    v ≤ w := by
  rcases h.eq_or_lt with rfl | h
  · exact (hv.unique hw).le
  by_contra hc
  have hc := not_le.mp hc
  have h1 := hv.2.1 w hw.1
  have h2 := hw.2.1 v hv.1
  rcases le_total x ((v + w) / 2) with h3 | h3
  · have : |w - x| < |v - x| ∨ x = (v + w) / 2 := by
      rcases h3.eq_or_lt with h3 | h3
      · exact Or.inr h3
      · left
        rw [abs_of_pos (show 0 < v - x by linarith), abs_lt]
        constructor <;> linarith
    rcases this with h4 | h4
    · linarith
    · have : |v - y| < |w - y| := by
        rw [abs_sub_comm w y, abs_of_pos (show 0 < y - w by linarith), abs_lt]
        constructor <;> linarith
      linarith
  · have : |v - y| < |w - y| := by
      rw [abs_sub_comm w y, abs_of_pos (show 0 < y - w by linarith), abs_lt]
      constructor <;> linarith
    linarith

theorem Spec.Rounded.exact {p : ℕ} {emin : ℤ} {x v : ℚ} (hv : Spec.Rounded p emin x v) (hx : Spec.Representable p emin x) : v = x := by
  have := hv.2.1 x hx
  rw [sub_self, abs_zero] at this
  have := abs_eq_zero.mp (le_antisymm this (abs_nonneg _))
  linarith

theorem Spec.Rounded.nonneg {p : ℕ} {emin : ℤ} {x v : ℚ} (hv : Spec.Rounded p emin x v) : 0 ≤ v := by
  obtain ⟨m, e, -, -, rfl⟩ := hv.1; positivity

/-- Half a unit in the last place. -/
theorem Spec.Rounded.half {p : ℕ} (hp : 1 ≤ p) {emin E : ℤ} (hE : emin ≤ E) {x v : ℚ} (hv : Spec.Rounded p emin x v) (hx : 0 ≤ x)
    (hlt : x < 2 ^ p * 2 ^ E) : 2 * |v - x| ≤ 2 ^ E := by
  have hu : (0 : ℚ) < 2 ^ E := by positivity
  obtain ⟨n, hn⟩ : ∃ n : ℕ, n = ⌊x / 2 ^ E⌋₊ := ⟨_, rfl⟩
  have h1 : (n : ℚ) * 2 ^ E ≤ x := by
    rw [← le_div_iff₀ hu, hn]; exact Nat.floor_le (by positivity)
  have h2 : x < (n + 1) * 2 ^ E := by
    rw [← div_lt_iff₀ hu, hn]; exact Nat.lt_floor_add_one _
  have h3 : n < 2 ^ p := by
    have : (n : ℚ) < 2 ^ p := by
      by_contra hc
      have := mul_le_mul_of_nonneg_right (not_lt.mp hc) hu.le
      linarith
    exact_mod_cast this
  have r1 : Spec.Representable p emin (n * 2 ^ E) := ⟨n, E, h3, hE, rfl⟩
  have r2 : Spec.Representable p emin ((n + 1) * 2 ^ E) := by
    rcases Nat.lt_or_ge (n + 1) (2 ^ p) with h | h
    · exact ⟨n + 1, E, h, hE, by push_cast; rfl⟩
    · have h4 : n + 1 = 2 ^ p := by omega
      refine ⟨2 ^ (p - 1), E + 1, Nat.pow_lt_pow_right (by norm_num) (by omega), by omega, ?_⟩
      have h5 : (n : ℚ) + 1 = 2 ^ p := by exact_mod_cast h4
      rw [h5, zpow_split, zpow_one]
      have h3 : (2 : ℚ) ^ p = 2 ^ (p - 1) * 2 := by rw [← pow_succ]; congr 1; omega
      push_cast
      rw [h3]; ring
  have d1 := hv.2.1 _ r1
  have d2 := hv.2.1 _ r2
  rw [abs_sub_comm (_ * _) x, abs_of_nonneg (show 0 ≤ x - n * 2 ^ E by linarith)] at d1
  rw [abs_of_nonneg (show 0 ≤ (n + 1) * 2 ^ E - x by linarith)] at d2
  linarith

theorem Spec.Rounded.error {p : ℕ} (hp : 1 ≤ p) {emin : ℤ} {x v : ℚ} (hv : Spec.Rounded p emin x v) (hx : 0 ≤ x) :
    2 ^ p * |v - x| ≤ x ∨ (2 * |v - x| ≤ 2 ^ emin ∧ x < 2 ^ p * 2 ^ emin) := by
  rcases hx.eq_or_lt with rfl | hx0
  · left
    have : v = 0 := hv.exact ⟨0, emin, by positivity, le_refl _, by norm_num⟩
    rw [this]; norm_num
  have h1 := Int.zpow_log_le_self (b := 2) (by norm_num) hx0
  have h2 := Int.lt_zpow_succ_log_self (b := 2) (by norm_num) x
  generalize Int.log 2 x = L at h1 h2
  push_cast at h1 h2
  by_cases hE : emin ≤ L + 1 - p
  · left
    have h3 : (2 : ℚ) ^ p * 2 ^ (L + 1 - p) = 2 ^ (L + 1) := by
      rw [← zpow_natCast, ← zpow_split]; congr 1; omega
    have h4 := hv.half hp hE hx (by rw [h3]; exact h2)
    have h5 : (2 : ℚ) ^ (L + 1) = 2 * 2 ^ L := by rw [zpow_split, zpow_one, mul_comm]
    have h6 := mul_le_mul_of_nonneg_left h4 (show (0 : ℚ) ≤ 2 ^ p by positivity)
    rw [h3, h5] at h6
    linarith
  · right
    have h3 : (2 : ℚ) ^ (L + 1) ≤ 2 ^ p * 2 ^ emin := by
      rw [← zpow_natCast, ← zpow_split]
      exact zpow_le_zpow_right₀ (by norm_num) (by omega)
    have h4 := lt_of_lt_of_le h2 h3
    exact ⟨hv.half hp (le_refl _) hx h4, h4⟩

end Mp4
