import Verif.Model.Calendar

/-! # The calendar computation is correct -/

namespace Mp4
namespace Calendar
open Spec

theorem days_step (y : Int) : daysBeforeYear (y + 1) = daysBeforeYear y + yearLength y := by
  simp only [daysBeforeYear, yearLength, leap, Bool.or_eq_true, Bool.and_eq_true, beq_iff_eq, bne_iff_ne, ne_eq]
  rw [show y + 1 - 1 = y by omega]
  split <;> omega

theorem month_table : ∀ doy < 366, 
    let mp := (5 * doy + 2) / 153
    let d := doy - (153 * mp + 2) / 5 + 1
    mp ≤ 11 ∧ (153 * mp + 2) / 5 + (d - 1) = doy ∧ 1 ≤ d ∧
    d ≤ (if mp = 1 ∨ mp = 3 ∨ mp = 6 ∨ mp = 8 then 30 else if mp = 11 then 29 else 31) ∧
    (mp = 11 → d = 29 → doy = 365) := by decide +kernel

theorem march_year' (Y : Int) (doy mp d : Nat) (hl : doy = 365 → leap (Y + 1) = true)
    (h1 : mp ≤ 11) (h2 : (153 * mp + 2) / 5 + (d - 1) = doy) (h3 : 1 ≤ d)
    (h4 : d ≤ (if mp = 1 ∨ mp = 3 ∨ mp = 6 ∨ mp = 8 then 30 else if mp = 11 then 29 else 31))
    (h5 : mp = 11 → d = 29 → doy = 365) (m : Nat) (hm : m = if mp < 10 then mp + 3 else mp - 9)
    (y : Int) (hy : y = if m ≤ 2 then Y + 1 else Y) :
    (1 ≤ m ∧ m ≤ 12 ∧ 1 ≤ d ∧ d ≤ monthLength y m) ∧
    daysBeforeYear y + daysBeforeMonth y m + (d - 1 : Nat) = daysBeforeYear (Y + 1) - 306 + doy := by
  have hs := days_step Y
  simp only [yearLength] at hs
  have : mp = 0 ∨ mp = 1 ∨ mp = 2 ∨ mp = 3 ∨ mp = 4 ∨ mp = 5 ∨ mp = 6 ∨ mp = 7 ∨ mp = 8 ∨ mp = 9 ∨ mp = 10 ∨ mp = 11 := by omega
  rcases this with e | e | e | e | e | e | e | e | e | e | e | e <;> subst e <;> simp at hm <;> subst hm <;> simp at hy <;>
    rw [hy] <;> simp [monthLength, daysBeforeMonth] at * <;> cases hb : leap Y <;> cases hb' : leap (Y + 1) <;>
    simp [hb, hb'] at * <;> omega

/-- The date in the year that begins in March: month `mp + 3`, `doy` days behind the first of March of year `Y`. -/
theorem march_year (Y : Int) (doy : Nat) (h : doy < 366) (hl : doy = 365 → leap (Y + 1) = true) :
    let mp := (5 * doy + 2) / 153
    let d := doy - (153 * mp + 2) / 5 + 1
    let m := if mp < 10 then mp + 3 else mp - 9
    let y := if m ≤ 2 then Y + 1 else Y
    (1 ≤ m ∧ m ≤ 12 ∧ 1 ≤ d ∧ d ≤ monthLength y m) ∧
    daysBeforeYear y + daysBeforeMonth y m + (d - 1 : Nat) = daysBeforeYear (Y + 1) - 306 + doy := by
  obtain ⟨h1, h2, h3, h4, h5⟩ := month_table doy h
  exact march_year' Y doy _ _ hl h1 h2 h3 h4 h5 _ rfl _ rfl

theorem civil_ok (z : Int) :
    (1 ≤ (civil z).2.1 ∧ (civil z).2.1 ≤ 12 ∧ 1 ≤ (civil z).2.2 ∧ (civil z).2.2 ≤ monthLength (civil z).1 (civil z).2.1) ∧
    daysBeforeYear (civil z).1 + daysBeforeMonth (civil z).1 (civil z).2.1 + ((civil z).2.2 - 1 : Nat) = z := by
  have key : ∀ (era : Int) (doe : Nat), doe < 146097 → z + 719468 = era * 146097 + doe →
      ∀ c q yy doy : Nat, c = min (doe / 36524) 3 → q = (doe - 36524 * c) / 1461 → yy = min ((doe - 36524 * c) % 1461 / 365) 3 →
      doy = (doe - 36524 * c) % 1461 - 365 * yy →
      doy < 366 ∧ (doy = 365 → leap (era * 400 + (100 * c + 4 * q + yy : Nat) + 1) = true) ∧
      daysBeforeYear (era * 400 + (100 * c + 4 * q + yy : Nat) + 1) - 306 + doy = z := by
    intro era doe hd hz c q yy doy hc hq hy hdoy
    have c3 : c ≤ 3 := by omega
    have q24 : q ≤ 24 := by omega
    have y3 : yy ≤ 3 := by omega
    have hdoe : doe = 36524 * c + 1461 * q + 365 * yy + doy := by omega
    refine ⟨by omega, ?_, ?_⟩
    · intro e
      simp only [leap, Bool.or_eq_true, Bool.and_eq_true, beq_iff_eq, bne_iff_ne, ne_eq]
      have : yy = 3 := by omega
      have : q < 24 ∨ c = 3 := by omega
      omega
    · simp only [daysBeforeYear]
      have e1 : (era * 400 + (100 * c + 4 * q + yy : Nat) + 1 - 1) / 4 = era * 100 + 25 * c + q := by omega
      have e2 : (era * 400 + (100 * c + 4 * q + yy : Nat) + 1 - 1) / 100 = era * 4 + c := by omega
      have e3 : (era * 400 + (100 * c + 4 * q + yy : Nat) + 1 - 1) / 400 = era := by omega
      rw [e1, e2, e3]
      omega
  obtain ⟨k1, k2, k3⟩ := key ((z + 719468) / 146097) ((z + 719468) % 146097).toNat (by omega) (by omega) _ _ _ _ rfl rfl rfl rfl
  have := march_year _ _ k1 k2
  rw [k3] at this
  exact this

theorem utc_valid (t : Int) : validDate (utc t) := by
  have := (civil_ok (t / 86400)).1
  simp only [validDate, utc]
  refine ⟨this.1, this.2.1, this.2.2.1, this.2.2.2, ?_, ?_, ?_⟩ <;> omega

theorem utc_seconds (t : Int) : secondsSince1970 (utc t) = t := by
  have := (civil_ok (t / 86400)).2
  simp only [secondsSince1970, utc]
  rw [this]
  omega

/-- Day of the year. -/
theorem beforeMonth_lt (y : Int) (m n : Nat) (h1 : 1 ≤ m) (h : m < n) (hn : n ≤ 12) :
    daysBeforeMonth y m + monthLength y m ≤ daysBeforeMonth y n := by
  have hm : m = 1 ∨ m = 2 ∨ m = 3 ∨ m = 4 ∨ m = 5 ∨ m = 6 ∨ m = 7 ∨ m = 8 ∨ m = 9 ∨ m = 10 ∨ m = 11 := by omega
  induction n with
  | zero => omega
  | succ n ih =>
    match n, h, hn with
    | 0, h, _ => omega
    | n + 1, h, hn =>
      rw [daysBeforeMonth]
      rcases Nat.lt_or_ge m (n + 1) with h | h
      · have := ih h (by omega)
        omega
      · have : m = n + 1 := by omega
        subst this; exact Nat.le_refl _

theorem yearDay_lt (y : Int) (m d : Nat) (h1 : 1 ≤ m) (h2 : m ≤ 12) (h3 : 1 ≤ d) (h4 : d ≤ monthLength y m) :
    (daysBeforeMonth y m + (d - 1 : Nat) : Int) < yearLength y := by
  have e : daysBeforeMonth y 12 + monthLength y 12 = yearLength y := by
    simp [daysBeforeMonth, monthLength, yearLength]; split <;> simp
  rcases Nat.lt_or_ge m 12 with h | h
  · have := beforeMonth_lt y m 12 h1 h (by omega)
    omega
  · have : m = 12 := by omega
    subst this; omega

theorem days_mono (y z : Int) (h : y < z) : daysBeforeYear y + yearLength y ≤ daysBeforeYear z := by
  obtain ⟨n, rfl⟩ : ∃ n : Nat, z = y + 1 + n := ⟨(z - y - 1).toNat, by omega⟩
  clear h
  induction n with
  | zero => have := days_step y; simp only [Int.natCast_zero, Int.add_zero]; omega
  | succ n ih =>
    have := days_step (y + 1 + n)
    have hl : 0 < yearLength (y + 1 + n) := by simp only [yearLength]; split <;> omega
    rw [show y + 1 + ((n + 1 : Nat) : Int) = y + 1 + n + 1 by omega]
    omega

theorem date_unique (d e : DateTime) (hd : validDate d) (he : validDate e) (h : secondsSince1970 d = secondsSince1970 e) : d = e := by
  obtain ⟨y, m, dd, hh, mm, ss⟩ := d
  obtain ⟨y', m', dd', hh', mm', ss'⟩ := e
  simp only [validDate] at hd he
  simp only [secondsSince1970] at h
  obtain ⟨a1, a2, a3, a4, a5, a6, a7⟩ := hd
  obtain ⟨b1, b2, b3, b4, b5, b6, b7⟩ := he
  generalize hA : daysBeforeYear y + daysBeforeMonth y m + (dd - 1 : Nat) = A at h
  generalize hB : daysBeforeYear y' + daysBeforeMonth y' m' + (dd' - 1 : Nat) = B at h
  have hAB : A = B := by omega
  have hh1 : hh = hh' := by omega
  have hm1 : mm = mm' := by omega
  have hs1 : ss = ss' := by omega
  have ya := yearDay_lt y m dd a1 a2 a3 a4
  have yb := yearDay_lt y' m' dd' b1 b2 b3 b4
  have hy : y = y' := by
    rcases Int.lt_trichotomy y y' with c | c | c
    · have := days_mono y y' c; omega
    · exact c
    · have := days_mono y' y c; omega
  subst hy
  have hmn : m = m' := by
    rcases Nat.lt_trichotomy m m' with c | c | c
    · have := beforeMonth_lt y m m' a1 c b2; omega
    · exact c
    · have := beforeMonth_lt y m' m b1 c a2; omega
  subst hmn
  have : dd = dd' := by omega
  subst this hh1 hm1 hs1
  rfl

end Calendar
end Mp4
