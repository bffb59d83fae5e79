import Verif.Model.Text

/-! # Numerals: digits, injectivity, nearest fractions -/

namespace Mp4
namespace Numerals

/-- The number a list of digits denotes. -/
def value (b : Nat) (l : List Nat) : Nat := l.foldl (fun acc d => acc * b + d) 0

theorem value_append (b : Nat) (l : List Nat) (d : Nat) : value b (l ++ [d]) = value b l * b + d := by simp [value]

theorem digitsAux_spec (b : Nat) (hb : 2 ≤ b) (fuel n : Nat) (h : n < fuel) :
    value b (digitsAux b fuel n) = n ∧ (∀ d ∈ digitsAux b fuel n, d < b) ∧ digitsAux b fuel n ≠ [] ∧
      (n ≠ 0 → (digitsAux b fuel n).head? ≠ some 0) := by
  induction fuel generalizing n with
  | zero => omega
  | succ fuel ih =>
    simp only [digitsAux]
    split
    · refine ⟨by simp [value], by simpa using by assumption, by simp, by simp⟩
    · have hdiv : n / b < n := Nat.div_lt_self (by omega) (by omega)
      have hq : n / b ≠ 0 := by
        have : 1 ≤ n / b := (Nat.le_div_iff_mul_le (by omega)).2 (by omega)
        omega
      obtain ⟨h1, h2, h3, h4⟩ := ih (n / b) (by omega)
      refine ⟨?_, ?_, by simp, ?_⟩
      · rw [value_append, h1]
        have := Nat.div_add_mod n b
        rw [Nat.mul_comm]; omega
      · intro d hd
        simp only [List.mem_append, List.mem_singleton] at hd
        rcases hd with hd | rfl
        · exact h2 d hd
        · exact Nat.mod_lt _ (by omega)
      · intro _
        have := h4 hq
        cases hl : digitsAux b fuel (n / b) with
        | nil => exact absurd hl h3
        | cons x xs => rw [hl] at this; simpa using this

theorem digits_spec (b : Nat) (hb : 2 ≤ b) (n : Nat) :
    value b (digits b n) = n ∧ (∀ d ∈ digits b n, d < b) ∧ digits b n ≠ [] ∧ (n ≠ 0 → (digits b n).head? ≠ some 0) :=
  digitsAux_spec b hb _ n (Nat.lt_succ_self n)

theorem hexDigit_inj : ∀ m < 16, ∀ n < 16, hexDigit m = hexDigit n → m = n := by decide +kernel

theorem map_hexDigit_inj (l m : List Nat) (hl : ∀ d ∈ l, d < 16) (hm : ∀ d ∈ m, d < 16) (h : l.map hexDigit = m.map hexDigit) : l = m := by
  induction l generalizing m with
  | nil => cases m with | nil => rfl | cons => simp at h
  | cons a l ih =>
    cases m with
    | nil => simp at h
    | cons b m =>
      simp only [List.map_cons, List.cons.injEq] at h
      rw [hexDigit_inj a (hl a (by simp)) b (hm b (by simp)) h.1, ih m (fun d hd => hl d (by simp [hd])) (fun d hd => hm d (by simp [hd])) h.2]

theorem digitText_inj (b : Nat) (hb : 2 ≤ b) (hb16 : b ≤ 16) (m n : Nat) (h : (digits b m).map hexDigit = (digits b n).map hexDigit) : m = n := by
  have hm := digits_spec b hb m
  have hn := digits_spec b hb n
  have := map_hexDigit_inj _ _ (fun d hd => Nat.lt_of_lt_of_le (hm.2.1 d hd) hb16) (fun d hd => Nat.lt_of_lt_of_le (hn.2.1 d hd) hb16) h
  rw [← hm.1, ← hn.1, this]

theorem dec_inj (m n : Nat) (h : dec m = dec n) : m = n := digitText_inj 10 (by decide) (by decide) m n h

theorem hexNat_inj (m n : Nat) (h : hexNat m = hexNat n) : m = n := by
  simp only [hexNat, List.append_cancel_left_eq] at h
  exact digitText_inj 16 (by decide) (by decide) m n h

/-- Decimal digits. -/
def isDigit (c : Byte) : Bool := 0x30#8 ≤ c && c ≤ 0x39#8
/-- Hexadecimal digits. -/
def isHex (c : Byte) : Bool := isDigit c || (0x61#8 ≤ c && c ≤ 0x66#8)

theorem hexDigit_isDigit : ∀ d < 10, isDigit (hexDigit d) = true := by decide +kernel
theorem hexDigit_isHex : ∀ d < 16, isHex (hexDigit d) = true := by decide +kernel

theorem dec_digits (n : Nat) : ∀ c ∈ dec n, isDigit c = true := by
  intro c hc
  simp only [dec, List.mem_map] at hc
  obtain ⟨d, hd, rfl⟩ := hc
  exact hexDigit_isDigit d ((digits_spec 10 (by decide) n).2.1 d hd)

theorem dec_ne_nil (n : Nat) : dec n ≠ [] := by
  simp only [dec, ne_eq, List.map_eq_nil_iff]
  exact (digits_spec 10 (by decide) n).2.2.1

theorem hexText_digits (n : Nat) : ∀ c ∈ (digits 16 n).map hexDigit, isHex c = true := by
  intro c hc
  simp only [List.mem_map] at hc
  obtain ⟨d, hd, rfl⟩ := hc
  exact hexDigit_isHex d ((digits_spec 16 (by decide) n).2.1 d hd)

theorem decPad_length (w n : Nat) : (decPad w n).length = w := by
  induction w generalizing n with
  | zero => rfl
  | succ w ih => simp [decPad, ih]

theorem decPad_digits (w n : Nat) : ∀ c ∈ decPad w n, isDigit c = true := by
  induction w generalizing n with
  | zero => simp [decPad]
  | succ w ih =>
    intro c hc
    simp only [decPad, List.mem_append, List.mem_singleton] at hc
    rcases hc with hc | rfl
    · exact ih _ c hc
    · exact hexDigit_isDigit _ (Nat.mod_lt _ (by decide))

theorem decPad_inj (w m n : Nat) (h : decPad w m = decPad w n) : m % 10 ^ w = n % 10 ^ w := by
  induction w generalizing m n with
  | zero => simp [Nat.mod_one]
  | succ w ih =>
    simp only [decPad] at h
    have h' := List.append_inj' h rfl
    have h1 := ih _ _ h'.1
    have h2 := hexDigit_inj (m % 10) (by omega) (n % 10) (by omega) (by simpa using h'.2)
    rw [Nat.pow_succ', Nat.mod_mul, Nat.mod_mul, h1, h2]

theorem isDigit_ne {c d : Byte} (h : isDigit c = true) (hd : isDigit d = false) : c ≠ d := by
  rintro rfl; rw [h] at hd; exact absurd hd (by decide)

/-- Splitting at the first character that is not a digit. -/
theorem digits_split {a b r s : List Byte} {c d : Byte} (ha : ∀ x ∈ a, isDigit x = true) (hb : ∀ x ∈ b, isDigit x = true)
    (hc : isDigit c = false) (hd : isDigit d = false) (h : a ++ c :: r = b ++ d :: s) : a = b ∧ c = d ∧ r = s := by
  induction a generalizing b with
  | nil =>
    cases b with
    | nil => simpa using h
    | cons y b =>
      simp only [List.nil_append, List.cons_append, List.cons.injEq] at h
      exact absurd h.1.symm (isDigit_ne (hb y (by simp)) hc)
  | cons x a ih =>
    cases b with
    | nil =>
      simp only [List.nil_append, List.cons_append, List.cons.injEq] at h
      exact absurd h.1 (isDigit_ne (ha x (by simp)) hd)
    | cons y b =>
      simp only [List.cons_append, List.cons.injEq] at h
      obtain ⟨e1, e2, e3⟩ := ih (fun z hz => ha z (by simp [hz])) (fun z hz => hb z (by simp [hz])) h.2
      exact ⟨by rw [h.1, e1], e2, e3⟩

theorem hex2_inj : ∀ a b : Byte, hex2 a = hex2 b → a = b := by
  intro a b h
  simp only [hex2, List.cons.injEq, and_true] at h
  have := hexDigit_inj _ (by have := a.isLt; omega) _ (by have := b.isLt; omega) h.1
  have := hexDigit_inj _ (by omega) _ (by omega) h.2
  apply BitVec.eq_of_toNat_eq
  omega

/-- Rounding moves by at most half a unit. -/
theorem roundEven_near (num den : Nat) (h : 0 < den) :
    2 * num ≤ 2 * (roundEven num den * den) + den ∧ 2 * (roundEven num den * den) ≤ 2 * num + den := by
  have e := Nat.div_add_mod num den
  have hr := Nat.mod_lt num h
  simp only [roundEven]
  generalize hq : num / den = q at *
  generalize hm : num % den = m at *
  rw [Nat.mul_comm] at e
  split
  · rename_i hc
    simp only [Bool.or_eq_true, decide_eq_true_eq, Bool.and_eq_true, beq_iff_eq] at hc
    rw [Nat.add_mul, Nat.one_mul]
    omega
  · rename_i hc
    simp only [Bool.or_eq_true, decide_eq_true_eq, Bool.and_eq_true, beq_iff_eq] at hc
    omega

theorem roundEven_tie (num den : Nat) (h : 0 < den) (ht : 2 * (num % den) = den) : roundEven num den % 2 = 0 := by
  simp only [roundEven, ht, Nat.lt_irrefl, decide_false, Bool.false_or, beq_self_eq_true, Bool.true_and, beq_iff_eq, gt_iff_lt]
  split <;> omega

end Numerals
end Mp4
