import Verif.Model.H264
import Verif.Spec.H264

/-! # The scanner of `find_next_nal_unit` -/

namespace Mp4

theorem byteAt_ok (data : List Byte) (i : Nat) (h : i < data.length) : byteAt data i = .ok (data.getD i 0) := by
  simp [byteAt, List.getElem?_eq_getElem h, List.getD]

theorem slice3_eq (data : List Byte) (i : Nat) (h : i + 2 < data.length) :
    slice data i 3 = [data.getD i 0, data.getD (i + 1) 0, data.getD (i + 2) 0] := by
  apply List.ext_getElem?
  intro k
  simp only [slice, List.getElem?_take, List.getElem?_drop]
  match k with
  | 0 => simp [List.getD, List.getElem?_eq_getElem (show i < data.length by omega)]
  | 1 => simp [List.getD, List.getElem?_eq_getElem (show i + 1 < data.length by omega)]
  | 2 => simp [List.getD, List.getElem?_eq_getElem (show i + 2 < data.length by omega)]
  | k + 3 => rw [if_neg (by omega)]; rfl

theorem slice4_eq (data : List Byte) (i : Nat) (h : i + 3 < data.length) :
    slice data i 4 = [data.getD i 0, data.getD (i + 1) 0, data.getD (i + 2) 0, data.getD (i + 3) 0] := by
  apply List.ext_getElem?
  intro k
  simp only [slice, List.getElem?_take, List.getElem?_drop]
  match k with
  | 0 => simp [List.getD, List.getElem?_eq_getElem (show i < data.length by omega)]
  | 1 => simp [List.getD, List.getElem?_eq_getElem (show i + 1 < data.length by omega)]
  | 2 => simp [List.getD, List.getElem?_eq_getElem (show i + 2 < data.length by omega)]
  | 3 => simp [List.getD, List.getElem?_eq_getElem (show i + 3 < data.length by omega)]
  | k + 4 => rw [if_neg (by omega)]; rfl

/-- The first condition never reads outside the buffer when `index + 5 < data_size`. -/
theorem startCode4_eq (data : List Byte) (i : Nat) (h : i + 3 < data.length) :
    startCode4 data i = .ok (decide (slice data i 4 = [0, 0, 0, 1])) := by
  rw [slice4_eq data i h]
  simp only [startCode4, andByte, byteAt_ok data i (by omega), byteAt_ok data (i + 1) (by omega),
    byteAt_ok data (i + 2) (by omega), byteAt_ok data (i + 3) (by omega)]
  generalize data.getD i 0 = a
  generalize data.getD (i + 1) 0 = b
  generalize data.getD (i + 2) 0 = c
  generalize data.getD (i + 3) 0 = d
  by_cases h0 : a = 0#8 <;> by_cases h1 : b = 0#8 <;> by_cases h2 : c = 0#8 <;> by_cases h3 : d = 1#8 <;>
    simp [h0, h1, h2, h3, bind, Except.bind, pure, Except.pure, Except.map]

theorem startCode3_eq (data : List Byte) (i : Nat) (h : i + 2 < data.length) :
    startCode3 data i = .ok (decide (slice data i 3 = [0, 0, 1])) := by
  rw [slice3_eq data i h]
  simp only [startCode3, andByte, byteAt_ok data i (by omega), byteAt_ok data (i + 1) (by omega),
    byteAt_ok data (i + 2) (by omega)]
  generalize data.getD i 0 = a
  generalize data.getD (i + 1) 0 = b
  generalize data.getD (i + 2) 0 = c
  by_cases h0 : a = 0#8 <;> by_cases h1 : b = 0#8 <;> by_cases h2 : c = 1#8 <;>
    simp [h0, h1, h2, bind, Except.bind, Except.map]

/-- The loop with the reads resolved. -/
theorem findGo_eq (data : List Byte) (start n index : Nat) (scs : Option Nat) (header : Byte)
    (h : index + 5 < data.length) :
    findGo data start (n + 1) index scs header =
      if slice data index 4 = [0, 0, 0, 1] then
        if header = 0 then findGo data start n (index + 4) (some 4) (data.getD (index + 4) 0)
        else returnNal scs start index header
      else if slice data index 3 = [0, 0, 1] then
        if header = 0 then findGo data start n (index + 3) (some 3) (data.getD (index + 3) 0)
        else returnNal scs start index header
      else if index = start ∧ header = 0 then .error (.exc "not start with nalunit")
      else findGo data start n (index + 1) scs header := by
  rw [findGo, if_pos h, startCode4_eq data index (by omega), startCode3_eq data index (by omega),
    byteAt_ok data (index + 4) (by omega), byteAt_ok data (index + 3) (by omega)]
  simp only [bind, Except.bind, decide_eq_true_eq]

/-- What the loop does once a header has been seen: it runs to the next start code, or to the end when there is none with more than
five bytes behind its beginning. -/
theorem findGo_header (data : List Byte) (start : Nat) (s : Nat) (header : Byte) (hh : header ≠ 0) (e : Nat) :
    ∀ n index, data.length - index < n → index ≤ e →
    (∀ j, index ≤ j → j < e → j + 5 < data.length → ¬ Spec.StartCodeAt data j) →
    (e + 5 < data.length → Spec.StartCodeAt data e) →
    findGo data start n index (some s) header =
      .ok ⟨s, start, if e + 5 < data.length then e else data.length, header⟩
  | 0, index, hn, _, _, _ => by omega
  | n + 1, index, hn, hi, hno, he => by
    by_cases hlt : index + 5 < data.length
    · rw [findGo_eq _ _ _ _ _ _ hlt]
      by_cases hie : index = e
      · subst hie
        rcases he hlt with h3 | h4
        · rw [if_pos hlt, if_neg hh, if_neg hh]
          by_cases h4 : slice data index 4 = [0, 0, 0, 1]
          · rw [if_pos h4]; rfl
          · rw [if_neg h4, if_pos h3]; rfl
        · rw [if_pos hlt, if_neg hh, if_pos h4]; rfl
      · have hns := hno index (Nat.le_refl _) (by omega) hlt
        rw [if_neg (fun h => hns (Or.inr h)), if_neg (fun h => hns (Or.inl h)), if_neg (fun h => hh h.2)]
        exact findGo_header data start s header hh e n (index + 1) (by omega) (by omega)
          (fun j hj => hno j (by omega)) he
    · rw [findGo, if_neg hlt, if_neg hh, if_neg (by omega)]; rfl

/-- What the loop can return, from any state it can be in. -/
theorem findGo_safe (data : List Byte) (start : Nat) :
    ∀ n index scs header, data.length - index < n → start ≤ index →
    (match scs with
      | none => index = start ∧ header = 0
      | some s => (s = 3 ∨ s = 4) ∧ start + s ≤ index ∧ Spec.StartCodeAt data start ∧
          (header ≠ 0 → start + s < data.length ∧ (index = start + s → data.getD index 0 ≠ 0))) →
    (∃ msg, findGo data start n index scs header = .error (.exc msg) ∧
      (msg = "not start with nalunit" ∨ msg = "nalunit not found")) ∨
    ∃ nu, findGo data start n index scs header = .ok nu ∧ nu.start = start ∧
      (nu.start_code_size = 3 ∨ nu.start_code_size = 4) ∧ start + nu.start_code_size < nu.end_ ∧
      nu.end_ ≤ data.length ∧ nu.header ≠ 0 ∧ Spec.StartCodeAt data start ∧
      (nu.end_ = data.length ∨ Spec.StartCodeAt data nu.end_)
  | 0, index, _, _, hn, _, _ => by omega
  | n + 1, index, scs, header, hn, hs, hst => by
    by_cases hlt : index + 5 < data.length
    · rw [findGo_eq _ _ _ _ _ _ hlt]
      have zero3 : Spec.StartCodeAt data index → data.getD index 0 = 0 := by
        rintro (h | h)
        · rw [slice3_eq data index (by omega)] at h; exact (List.cons.inj h).1
        · rw [slice4_eq data index (by omega)] at h; exact (List.cons.inj h).1
      have fin : Spec.StartCodeAt data index → header ≠ 0 →
          ∃ nu, returnNal scs start index header = .ok nu ∧ nu.start = start ∧
          (nu.start_code_size = 3 ∨ nu.start_code_size = 4) ∧ start + nu.start_code_size < nu.end_ ∧
          nu.end_ ≤ data.length ∧ nu.header ≠ 0 ∧ Spec.StartCodeAt data start ∧
          (nu.end_ = data.length ∨ Spec.StartCodeAt data nu.end_) := by
        intro hsc hh
        cases scs with
        | none => exact absurd hst.2 hh
        | some s =>
          obtain ⟨h1, h2, h3, h4⟩ := hst
          refine ⟨_, rfl, rfl, h1, ?_, by show index ≤ _; omega, hh, h3, Or.inr hsc⟩
          show start + s < index
          rcases Nat.lt_or_ge (start + s) index with h | h
          · exact h
          · exact absurd (zero3 hsc) ((h4 hh).2 (by omega))
      have start_sc : Spec.StartCodeAt data index → Spec.StartCodeAt data start := by
        intro h
        cases scs with
        | none => rw [hst.1] at h; exact h
        | some s => exact hst.2.2.1
      by_cases h4 : slice data index 4 = [0, 0, 0, 1]
      · rw [if_pos h4]
        by_cases hh : header = 0
        · rw [if_pos hh]
          refine findGo_safe data start n _ _ _ (by omega) (by omega) ⟨Or.inr rfl, by omega, start_sc (Or.inr h4), ?_⟩
          intro hne
          exact ⟨by omega, fun _ => hne⟩
        · rw [if_neg hh]
          exact Or.inr (fin (Or.inr h4) hh)
      · rw [if_neg h4]
        by_cases h3 : slice data index 3 = [0, 0, 1]
        · rw [if_pos h3]
          by_cases hh : header = 0
          · rw [if_pos hh]
            refine findGo_safe data start n _ _ _ (by omega) (by omega) ⟨Or.inl rfl, by omega, start_sc (Or.inl h3), ?_⟩
            intro hne
            exact ⟨by omega, fun _ => hne⟩
          · rw [if_neg hh]
            exact Or.inr (fin (Or.inl h3) hh)
        · rw [if_neg h3]
          by_cases hz : index = start ∧ header = 0
          · rw [if_pos hz]
            exact Or.inl ⟨_, rfl, Or.inl rfl⟩
          · rw [if_neg hz]
            refine findGo_safe data start n _ _ _ (by omega) (by omega) ?_
            cases scs with
            | none => exact absurd hst hz
            | some s =>
              obtain ⟨h1, h2, h3, h4⟩ := hst
              exact ⟨h1, by omega, h3, fun hh => ⟨(h4 hh).1, fun h => by omega⟩⟩
    · rw [findGo, if_neg hlt]
      by_cases hh : header = 0
      · rw [if_pos hh]
        exact Or.inl ⟨_, rfl, Or.inr rfl⟩
      · rw [if_neg hh]
        cases scs with
        | none => exact absurd hst.2 hh
        | some s =>
          obtain ⟨h1, h2, h3, h4⟩ := hst
          exact Or.inr ⟨_, rfl, rfl, h1, (h4 hh).1, Nat.le_refl _, hh, h3, Or.inl rfl⟩

/-- More rounds change nothing. -/
theorem findGo_mono (data : List Byte) (start : Nat) :
    ∀ n m index scs header, data.length - index < n → n ≤ m →
    findGo data start m index scs header = findGo data start n index scs header
  | 0, m, index, _, _, hn, _ => by omega
  | n + 1, 0, _, _, _, _, hm => by omega
  | n + 1, m + 1, index, scs, header, hn, hm => by
    by_cases hlt : index + 5 < data.length
    · rw [findGo_eq _ _ _ _ _ _ hlt, findGo_eq _ _ _ _ _ _ hlt,
        findGo_mono data start n m (index + 4) _ _ (by omega) (by omega),
        findGo_mono data start n m (index + 3) _ _ (by omega) (by omega),
        findGo_mono data start n m (index + 1) _ _ (by omega) (by omega)]
    · rw [findGo, if_neg hlt, findGo, if_neg hlt]

/-! ### Joined streams -/

open Spec in
theorem annexB_append (a b : List (Bool × List Byte)) : annexB (a ++ b) = annexB a ++ annexB b := by
  induction a with
  | nil => rfl
  | cons u a ih => simp [annexB, ih]

theorem slice_prefix (p q : List Byte) (n : Nat) (l : List Byte) (h : l.length = n) (rest : List Byte) (hq : q = l ++ rest) :
    slice (p ++ q) p.length n = l := by
  subst hq
  simp only [slice, List.drop_left]
  rw [← h, List.take_left]

theorem getD_append_right' (p q : List Byte) (k : Nat) : (p ++ q).getD (p.length + k) 0 = q.getD k 0 := by
  simp [List.getD, List.getElem?_append_right]

theorem startCodeAt_zero (data : List Byte) (j : Nat) (h : j + 5 < data.length) (hs : Spec.StartCodeAt data j) :
    (data[j]? = some 0 ∧ data[j + 1]? = some 0 ∧ data[j + 2]? = some 1) ∨
    (data[j]? = some 0 ∧ data[j + 1]? = some 0 ∧ data[j + 2]? = some 0 ∧ data[j + 3]? = some 1) := by
  have e : ∀ k, k < data.length → data[k]? = some (data.getD k 0) := by
    intro k hk; simp [List.getD, List.getElem?_eq_getElem hk]
  rcases hs with h3 | h4
  · rw [slice3_eq data j (by omega)] at h3
    simp only [List.cons.injEq, and_true] at h3
    left
    rw [e j (by omega), e (j + 1) (by omega), e (j + 2) (by omega), h3.1, h3.2.1, h3.2.2]
    exact ⟨rfl, rfl, rfl⟩
  · rw [slice4_eq data j (by omega)] at h4
    simp only [List.cons.injEq, and_true] at h4
    right
    rw [e j (by omega), e (j + 1) (by omega), e (j + 2) (by omega), e (j + 3) (by omega), h4.1, h4.2.1, h4.2.2.1,
      h4.2.2.2]
    exact ⟨rfl, rfl, rfl, rfl⟩

theorem infix_of_getElem (p : List Byte) (k : Nat) (h0 : p[k]? = some 0) (h1 : p[k + 1]? = some 0)
    (h2 : p[k + 2]? = some 1) : [0, 0, 1] <:+: p := by
  refine ⟨p.take k, p.drop (k + 3), ?_⟩
  apply List.ext_getElem?
  intro i
  have hk : k + 2 < p.length := (List.getElem?_eq_some_iff.mp h2).1
  by_cases hi : i < k
  · rw [List.append_assoc, List.getElem?_append_left (by simp; omega), List.getElem?_take_of_lt hi]
  · rw [List.append_assoc, List.getElem?_append_right (by simp; omega)]
    have : (p.take k).length = k := by simp; omega
    rw [this]
    obtain ⟨d, rfl⟩ : ∃ d, i = k + d := ⟨i - k, by omega⟩
    rw [Nat.add_sub_cancel_left]
    match d with
    | 0 => simpa using h0.symm
    | 1 => simpa using h1.symm
    | 2 => simpa using h2.symm
    | d + 3 =>
      rw [List.getElem?_append_right (by simp), List.getElem?_drop]
      congr 1; simp; omega

/-- Inside a NAL unit of a stream no start code begins. -/
theorem no_startCode_inside (a nal b : List Byte) (h : Spec.NalOk nal) (j : Nat) (h1 : a.length ≤ j)
    (h2 : j < a.length + nal.length) (h5 : j + 5 < (a ++ nal ++ b).length) :
    ¬ Spec.StartCodeAt (a ++ nal ++ b) j := by
  intro hs
  obtain ⟨-, hlast, hne, hno⟩ := h
  have hg : ∀ k, k < nal.length → (a ++ nal ++ b)[a.length + k]? = nal[k]? := by
    intro k hk
    rw [List.append_assoc, List.getElem?_append_right (by omega), Nat.add_sub_cancel_left, List.getElem?_append_left hk]
  have hl : nal[nal.length - 1]? ≠ some 0 := by rwa [← List.getLast?_eq_getElem?]
  have hpos : 0 < nal.length := List.length_pos_iff.mpr hne
  obtain ⟨k, rfl⟩ : ∃ k, j = a.length + k := ⟨j - a.length, by omega⟩
  have hz : ∀ d, (a ++ nal ++ b)[a.length + k + d]? = some 0 → k + d ≠ nal.length - 1 := by
    intro d hd he
    rw [Nat.add_assoc, hg (k + d) (by omega), he] at hd
    exact hl hd
  rcases startCodeAt_zero _ _ h5 hs with ⟨z0, z1, z2⟩ | ⟨z0, z1, z2, z3⟩
  · have e0 := hz 0 z0
    have e1 := hz 1 z1
    rw [Nat.add_assoc, hg _ (by omega)] at z1 z2
    rw [hg _ (by omega)] at z0
    exact hno (infix_of_getElem nal k z0 z1 z2)
  · have e0 := hz 0 z0
    have e1 := hz 1 z1
    have e2 := hz 2 z2
    rw [Nat.add_assoc, hg _ (by omega)] at z1 z2 z3
    exact hno (infix_of_getElem nal (k + 1) z1 (by rw [Nat.add_assoc]; exact z2) (by rw [Nat.add_assoc]; exact z3))

theorem startCode_length (l : Bool) : (Spec.startCode l).length = if l then 4 else 3 := by cases l <;> rfl

/-- A start code at the beginning of `q` is found at its position. -/
theorem startCodeAt_append (p q rest : List Byte) (l : Bool) (hq : q = Spec.startCode l ++ rest) :
    Spec.StartCodeAt (p ++ q) p.length := by
  cases l
  · exact Or.inl (slice_prefix p q 3 _ rfl rest hq)
  · exact Or.inr (slice_prefix p q 4 _ rfl rest hq)

/-- The first round: the start code at `start` and the header byte behind it. -/
theorem findGo_first (a rest : List Byte) (l : Bool) (x : Byte) (hx : x ≠ 0) (n : Nat)
    (h5 : (Spec.startCode l).length + 1 + rest.length > 5) :
    findGo (a ++ (Spec.startCode l ++ x :: rest)) a.length (n + 1) a.length none 0 =
      findGo (a ++ (Spec.startCode l ++ x :: rest)) a.length n (a.length + (Spec.startCode l).length)
        (some (Spec.startCode l).length) x := by
  have hlen : (a ++ (Spec.startCode l ++ x :: rest)).length = a.length + ((Spec.startCode l).length + (rest.length + 1)) := by
    simp
  rw [findGo_eq _ _ _ _ _ _ (by rw [hlen]; omega)]
  cases l
  · rw [if_neg, if_pos (slice_prefix a (Spec.startCode false ++ x :: rest) 3 [0, 0, 1] rfl (x :: rest) rfl), if_pos rfl]
    · have : (a ++ (Spec.startCode false ++ x :: rest)).getD (a.length + 3) 0 = x := by
        rw [getD_append_right']; rfl
      rw [this]; rfl
    · rw [slice_prefix a (Spec.startCode false ++ x :: rest) 4 [0, 0, 1, x] rfl rest rfl]
      simp
  · rw [if_pos (slice_prefix a (Spec.startCode true ++ x :: rest) 4 [0, 0, 0, 1] rfl (x :: rest) rfl), if_pos rfl]
    have : (a ++ (Spec.startCode true ++ x :: rest)).getD (a.length + 4) 0 = x := by
      rw [getD_append_right']; rfl
    rw [this]; rfl

end Mp4
