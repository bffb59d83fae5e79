import Verif.Lemmas.Calendar

/-!
# C51: the text of a time

`gmtime_r` and `{:%FT%TZ}` are modelled in `Verif/Model/Calendar.lean`; the calendar they are compared with is in
`Verif/Spec/Calendar.lean`.
-/

namespace Mp4

open Spec

/-- **C51 (calendar, sanity of the specification).** `daysBeforeYear` counts the days of the years from 1970 on. -/
theorem C51_days_before_year : daysBeforeYear 1970 = 0 ∧ ∀ y, daysBeforeYear (y + 1) = daysBeforeYear y + yearLength y :=
  ⟨by decide, Calendar.days_step⟩

/-- **C51 (calendar, sanity of the specification).** Every number of seconds is that of exactly one date. -/
theorem C51_date_unique (t : Int) : ∃ d, (validDate d ∧ secondsSince1970 d = t) ∧ ∀ e, validDate e ∧ secondsSince1970 e = t → e = d :=
  ⟨utc t, ⟨Calendar.utc_valid t, Calendar.utc_seconds t⟩, fun e he =>
    Calendar.date_unique e (utc t) he.1 (Calendar.utc_valid t) (he.2.trans (Calendar.utc_seconds t).symm)⟩

theorem utc_of_date (d : DateTime) (h : validDate d) : utc (secondsSince1970 d) = d :=
  Calendar.date_unique _ _ (Calendar.utc_valid _) h (Calendar.utc_seconds _)

theorem hexDigit_digitChar (n : Nat) : hexDigit (n % 10) = digitChar n := by
  have : n % 10 < 10 := Nat.mod_lt _ (by decide)
  simp [hexDigit, digitChar, this]

/-- Years are ordered like seconds. -/
theorem seconds_lt_of_year_lt (d e : DateTime) (hd : validDate d) (he : validDate e) (h : d.year < e.year) :
    secondsSince1970 d < secondsSince1970 e := by
  obtain ⟨a1, a2, a3, a4, a5, a6, a7⟩ := hd
  have h1 := Calendar.yearDay_lt d.year d.month d.day a1 a2 a3 a4
  have h2 := Calendar.days_mono d.year e.year h
  simp only [secondsSince1970]
  have : (0 : Int) ≤ (daysBeforeMonth e.year e.month : Int) := Int.natCast_nonneg _
  have : (0 : Int) ≤ ((e.day - 1 : Nat) : Int) := Int.natCast_nonneg _
  have : (d.hour : Int) * 3600 + d.minute * 60 + d.second < 86400 := by omega
  have : (0 : Int) ≤ (e.hour : Int) * 3600 + e.minute * 60 + e.second := by omega
  omega

theorem newYear_valid (y : Int) : validDate (newYear y) := by simp [validDate, newYear, monthLength]

theorem newYear_le (d : DateTime) (hd : validDate d) : secondsSince1970 (newYear d.year) ≤ secondsSince1970 d := by
  have : (0 : Int) ≤ (daysBeforeMonth d.year d.month : Int) := Int.natCast_nonneg _
  have : (0 : Int) ≤ ((d.day - 1 : Nat) : Int) := Int.natCast_nonneg _
  simp only [secondsSince1970, newYear, daysBeforeMonth]
  omega

theorem year_lt_iff (t y : Int) : (utc t).year < y ↔ t < secondsSince1970 (newYear y) := by
  constructor
  · intro h
    have := seconds_lt_of_year_lt (utc t) (newYear y) (Calendar.utc_valid t) (newYear_valid y) h
    rwa [Calendar.utc_seconds] at this
  · intro h
    rcases Int.lt_or_le (utc t).year y with h' | h'
    · exact h'
    · exfalso
      have a := newYear_le (utc t) (Calendar.utc_valid t)
      rw [Calendar.utc_seconds] at a
      rcases Int.lt_or_eq_of_le h' with h'' | h''
      · have := seconds_lt_of_year_lt (newYear y) (newYear (utc t).year) (newYear_valid _) (newYear_valid _) h''
        omega
      · rw [← h''] at a; omega

theorem text_iso (d : DateTime) (h0 : 0 ≤ d.year) (h1 : d.year < 10000) : d.text = iso8601 d := by
  have e : d.year.natAbs = d.year.toNat := by omega
  simp only [DateTime.text, iso8601, yearText, h0, h1, and_self, if_true, e, decPad, hexDigit_digitChar, twoDigits,
    List.nil_append, List.append_assoc, List.cons_append, Nat.div_div_eq_div_mul]
  rfl

/-- The signed number of seconds since 1970 the library computes from a stored time (wrapping subtraction, interpreted as signed). -/
theorem from1970 (t : BitVec 64) :
    (t - SECONDS_19040101_to_19700101).toInt =
      if t.toNat < 2 ^ 63 + 2082844800 then (t.toNat : Int) - 2082844800 else (t.toNat : Int) - 2082844800 - 2 ^ 64 := by
  have hs : SECONDS_19040101_to_19700101.toNat = 2082844800 := by decide
  have := t.isLt
  rw [BitVec.toInt_eq_toNat_cond, BitVec.toNat_sub, hs]
  by_cases h : 2082844800 ≤ t.toNat
  · rw [show 2 ^ 64 - 2082844800 + t.toNat = (t.toNat - 2082844800) + 2 ^ 64 by omega, Nat.add_mod_right, Nat.mod_eq_of_lt (by omega)]
    split <;> split <;> omega
  · rw [Nat.mod_eq_of_lt (by omega)]
    split <;> split <;> omega

/-- **C51 (calendar).** A time from 1904-01-01T00:00:00Z up to 2106-02-07T06:28:15Z, counted in seconds from the beginning of 1904 as it is
stored in a file, is shown as exactly that date, in ISO 8601 form. -/
theorem C51_calendar (t : BitVec 64) (h : t.toNat ≤ 2082844800 + 4294967295) :
    ∃ d, validDate d ∧ secondsSince1970 d - secondsSince1970 epoch1904 = t.toNat ∧ 1904 ≤ d.year ∧ d.year ≤ 2106 ∧
      timeText t = .ok (iso8601 d) := by
  have e0 : secondsSince1970 epoch1904 = -2082844800 := by decide
  have hf := from1970 t
  rw [if_pos (by omega)] at hf
  have hlo : 1904 ≤ (utc ((t.toNat : Int) - 2082844800)).year := by
    have := (year_lt_iff ((t.toNat : Int) - 2082844800) 1904)
    rw [show secondsSince1970 (newYear 1904) = -2082844800 from e0] at this
    omega
  have hhi : (utc ((t.toNat : Int) - 2082844800)).year < 2107 := by
    rw [year_lt_iff, show secondsSince1970 (newYear 2107) = 4323283200 by decide]
    omega
  refine ⟨utc ((t.toNat : Int) - 2082844800), Calendar.utc_valid _, ?_, hlo, by omega, ?_⟩
  · rw [Calendar.utc_seconds, e0]; omega
  · simp only [timeText, format_epoch_19040101, hf]
    rw [if_neg (by omega)]
    simp only [gmtime_r]
    rw [if_pos (by omega)]
    simp only
    rw [text_iso _ (by omega) (by omega)]

/-- **C51 (calendar, the other way).** Every date in that range is shown when its time is stored. -/
theorem C51_calendar_of_date (d : DateTime) (hd : validDate d) (t : BitVec 64)
    (ht : (t.toNat : Int) = secondsSince1970 d - secondsSince1970 epoch1904) (hmax : t.toNat ≤ 2082844800 + 4294967295) :
    timeText t = .ok (iso8601 d) := by
  obtain ⟨e, he, hs, -, -, htext⟩ := C51_calendar t hmax
  rw [htext, Calendar.date_unique e d he hd (by omega)]

theorem digitChar_inj {m n : Nat} (h : digitChar m = digitChar n) : m % 10 = n % 10 := by
  have := congrArg BitVec.toNat h
  simp only [digitChar, BitVec.toNat_ofNat] at this
  omega

theorem twoDigits_inj {m n : Nat} (hm : m < 100) (hn : n < 100) (h : twoDigits m = twoDigits n) : m = n := by
  simp only [twoDigits, List.cons.injEq, and_true] at h
  have := digitChar_inj h.1; have := digitChar_inj h.2
  omega

/-- **C51 (distinct texts).** Different times in that range have different texts. -/
theorem C51_text_injective (t u : BitVec 64) (ht : t.toNat ≤ 2082844800 + 4294967295) (hu : u.toNat ≤ 2082844800 + 4294967295)
    (h : timeText t = timeText u) : t = u := by
  obtain ⟨d, vd, sd, d1, d2, td⟩ := C51_calendar t ht
  obtain ⟨e, ve, se, e1, e2, te⟩ := C51_calendar u hu
  rw [td, te] at h
  have h := Except.ok.inj h
  simp only [iso8601, twoDigits, List.cons_append, List.nil_append, List.append_assoc, List.cons.injEq, and_true, true_and] at h
  obtain ⟨h1, h2, h3, h4, h5, h6, h7, h8, h9, h10, h11, h12, h13, h14⟩ := h
  have ml : ∀ y m, monthLength y m ≤ 31 := by intro y m; unfold monthLength; split <;> (try split) <;> omega
  obtain ⟨a1, a2, a3, a4, a5, a6, a7⟩ := vd
  obtain ⟨b1, b2, b3, b4, b5, b6, b7⟩ := ve
  have := ml d.year d.month; have := ml e.year e.month
  have := digitChar_inj h1; have := digitChar_inj h2; have := digitChar_inj h3; have := digitChar_inj h4
  have := digitChar_inj h5; have := digitChar_inj h6; have := digitChar_inj h7; have := digitChar_inj h8
  have := digitChar_inj h9; have := digitChar_inj h10; have := digitChar_inj h11; have := digitChar_inj h12
  have := digitChar_inj h13; have := digitChar_inj h14
  have hde : d = e := by
    obtain ⟨y, m, dd, hh, mm, ss⟩ := d
    obtain ⟨y', m', dd', hh', mm', ss'⟩ := e
    simp only at *
    have : y = y' := by omega
    have : m = m' := by omega
    have : dd = dd' := by omega
    have : hh = hh' := by omega
    have : mm = mm' := by omega
    have : ss = ss' := by omega
    simp [*]
  rw [hde] at sd
  apply BitVec.eq_of_toNat_eq
  omega

/-- **C51 (all times).** What is shown for each of the 2^64 stored times: a date up to February 2106; zeros for later times up to the point where
the signed subtraction changes sign; and beyond it a date before 1970 again — or, from the point where the year does not fit into an `int`, undefined
behaviour (a null pointer is dereferenced). -/
theorem C51_all_times (t : BitVec 64) :
    (2082844800 + 4294967295 < t.toNat → t.toNat < 2 ^ 63 + 2082844800 → timeText t = .ok b!"0000-00-00T00:00:00Z") ∧
    (2 ^ 63 + 2082844800 ≤ t.toNat →
      let s : Int := (t.toNat : Int) - 2 ^ 64 + secondsSince1970 epoch1904
      (s < secondsSince1970 (newYear (1900 - 2 ^ 31)) → ∃ m, timeText t = .error (.ub m)) ∧
      (secondsSince1970 (newYear (1900 - 2 ^ 31)) ≤ s → ∃ d, validDate d ∧ secondsSince1970 d = s ∧
        timeText t = .ok d.text ∧ (0 ≤ d.year → timeText t = .ok (iso8601 d)))) := by
  have hf := from1970 t
  constructor
  · intro h1 h2
    rw [if_pos h2] at hf
    simp only [timeText, format_epoch_19040101, hf]
    rw [if_pos (by omega)]
  · intro h1
    rw [if_neg (by omega)] at hf
    have e0 : secondsSince1970 epoch1904 = -2082844800 := by decide
    have hs : (t.toNat : Int) - 2 ^ 64 + secondsSince1970 epoch1904 = (t.toNat : Int) - 2082844800 - 2 ^ 64 := by rw [e0]; omega
    simp only [hs]
    generalize hsd : (t.toNat : Int) - 2082844800 - 2 ^ 64 = s at *
    have hneg : s < 0 := by have := t.isLt; omega
    have hhi : (utc s).year < 1970 := by rw [year_lt_iff]; exact hneg
    have hlo := year_lt_iff s (1900 - 2 ^ 31)
    have htt : timeText t = match gmtime_r s with
        | some d => .ok d.text
        | none => .error (.ub "null pointer dereferenced: gmtime_r() failed") := by
      simp only [timeText, format_epoch_19040101, hf]
      rw [if_neg (by omega)]
      simp only []
      cases gmtime_r s <;> rfl
    constructor
    · intro h
      refine ⟨"null pointer dereferenced: gmtime_r() failed", htt.trans ?_⟩
      have := hlo.2 h
      rw [gmtime_r, if_neg (by omega)]
    · intro h
      have : ¬ (utc s).year < 1900 - 2 ^ 31 := fun hc => by have := hlo.1 hc; omega
      have hr : timeText t = .ok (utc s).text := htt.trans (by rw [gmtime_r, if_pos (by omega)])
      exact ⟨utc s, Calendar.utc_valid s, Calendar.utc_seconds s, hr, fun h0 => hr.trans (by rw [text_iso _ h0 (by omega)])⟩

/-- C51: times in all four ranges exist. -/
example : timeText 0 = .ok b!"1904-01-01T00:00:00Z" ∧ timeText 5000000000 = .ok b!"2062-06-10T08:53:20Z" ∧
    timeText 6377812095 = .ok b!"2106-02-07T06:28:15Z" ∧ timeText 6377812096 = .ok b!"0000-00-00T00:00:00Z" ∧
    timeText 0xffffffffffffffff = .ok b!"1903-12-31T23:59:59Z" ∧ (∃ m, timeText 0x8000000100000000 = .error (.ub m)) := by
  refine ⟨by decide +kernel, by decide +kernel, by decide +kernel, by decide +kernel, by decide +kernel, _, rfl⟩

end Mp4
