import Verif.Lemmas.DumpWf

/-! # Lines of the dump can be told apart -/

namespace Mp4
namespace DumpLines

open Spec DumpText DumpInj Numerals

/-- Without line breaks. -/
def OneLine (l : List Byte) : Prop := 0x0a#8 ∉ l

theorem OneLine.append {a b : List Byte} (ha : OneLine a) (hb : OneLine b) : OneLine (a ++ b) := by
  unfold OneLine at *
  simp only [List.mem_append, not_or]; exact ⟨ha, hb⟩

theorem oneLine_of_digits {l : List Byte} (h : ∀ c ∈ l, isDigit c = true) : OneLine l :=
  fun hm => absurd (h _ hm) (by decide)
theorem oneLine_of_hex {l : List Byte} (h : ∀ c ∈ l, isHex c = true) : OneLine l :=
  fun hm => absurd (h _ hm) (by decide)

theorem hex2_isHex (b : Byte) : ∀ c ∈ hex2 b, isHex c = true := by
  intro c hc
  simp only [hex2, List.mem_cons, List.not_mem_nil, or_false] at hc
  have := b.isLt
  rcases hc with rfl | rfl
  · exact hexDigit_isHex _ (by omega)
  · exact hexDigit_isHex _ (by omega)

theorem oneLine_scalar (s : Scalar) (h : Wf s ∨ ∃ a b c, s = .flags a b c) : OneLine s.text := by
  rcases h with h | ⟨a, b, c, rfl⟩
  · intro hm; exact absurd (text_tok s h _ hm) (by decide)
  · show OneLine (b!"0x" ++ hex2 a ++ hex2 b ++ hex2 c)
    exact ((OneLine.append (by unfold OneLine; decide) (oneLine_of_hex (hex2_isHex a))).append (oneLine_of_hex (hex2_isHex b))).append
      (oneLine_of_hex (hex2_isHex c))

theorem oneLine_intercalate (sep : List Byte) (hs : OneLine sep) (l : List (List Byte)) (h : ∀ x ∈ l, OneLine x) : OneLine (List.intercalate sep l) := by
  cases l with
  | nil => simp [OneLine, List.intercalate]
  | cons x l =>
    rw [intercalate_cons]
    refine OneLine.append (h x (by simp)) ?_
    unfold OneLine
    simp only [List.mem_flatMap, not_exists, not_and]
    intro y hy
    exact hs.append (h y (by simp [hy]))

/-- No text in quotes contains a line break. -/
def NF (l : List (List Byte)) : Prop := ∀ s ∈ l, 0x0a#8 ∉ s

mutual
theorem oneLine_item : ∀ x : Item, WfRec x → NF x.quotes → OneLine x.text
  | .scalar s, h, _ => by
    simp only [Item.text]
    simp only [WfRec] at h
    refine oneLine_scalar s ?_
    rcases h with h | h
    · cases s with
      | flags a b c => exact .inr ⟨a, b, c, rfl⟩
      | _ => simp [isFlags] at h
    · exact .inl h
  | .quoted s, _, hq => by
    simp only [Item.text]
    simp only [Item.quotes] at hq
    exact (OneLine.append (by unfold OneLine; decide) (hq s (by simp))).append (by unfold OneLine; decide)
  | .list l, h, hq => by
    simp only [Item.text]
    simp only [Item.quotes] at hq
    simp only [WfRec] at h
    exact (OneLine.append (by unfold OneLine; decide) (oneLine_intercalate _ (by unfold OneLine; decide) _ (oneLine_items l h hq))).append
      (by unfold OneLine; decide)
  | .spaced l, h, hq => by
    simp only [Item.text]
    simp only [Item.quotes] at hq
    simp only [WfRec] at h
    exact (OneLine.append (by unfold OneLine; decide) (oneLine_intercalate _ (by unfold OneLine; decide) _ (oneLine_items l h hq))).append
      (by unfold OneLine; decide)
  | .record fs, h, hq => by
    simp only [Item.text]
    simp only [Item.quotes] at hq
    simp only [WfRec] at h
    exact (OneLine.append (by unfold OneLine; decide) (oneLine_intercalate _ (by unfold OneLine; decide) _ (oneLine_fields fs h hq))).append
      (by unfold OneLine; decide)
theorem oneLine_items : ∀ l : List Item, WfItems l → NF (Item.quotesOf l) → ∀ x ∈ Item.texts l, OneLine x
  | [], _, _ => by intro x hx; simp [Item.texts] at hx
  | y :: l, h, hq => by
    intro x hx
    simp only [WfItems] at h
    simp only [Item.quotesOf] at hq
    simp only [Item.texts, List.mem_cons] at hx
    rcases hx with e | hx
    · rw [e]; exact oneLine_item y h.1.1.2.2 (fun s hs => hq s (by simp [hs]))
    · exact oneLine_items l h.2 (fun s hs => hq s (by simp [hs])) x hx
theorem oneLine_fields : ∀ l : List (List Byte × Item), WfFields l → NF (Item.fieldQuotes l) → ∀ x ∈ Item.fieldTexts l, OneLine x
  | [], _, _ => by intro x hx; simp [Item.fieldTexts] at hx
  | (a, y) :: l, h, hq => by
    intro x hx
    simp only [WfFields] at h
    simp only [Item.fieldQuotes] at hq
    simp only [Item.fieldTexts, List.mem_cons] at hx
    rcases hx with e | hx
    · rw [e]
      have h1 := h.1
      have h2 := h1.2.2.1.2
      have h3 := h1.2.2.2.2.2
      exact (OneLine.append h2 (by unfold OneLine; decide)).append (oneLine_item y h3 (fun s hs => hq s (by simp [hs])))
    · exact oneLine_fields l h.2 (fun s hs => hq s (by simp [hs])) x hx
end

theorem oneLine_render (fs : List Field) (h : WfFields fs) (hq : NF (quotedTexts fs)) : OneLine (render fs) :=
  oneLine_intercalate _ (by unfold OneLine; decide) _ (oneLine_fields fs h hq)

/-! ## Types -/

theorem subst_split : ∀ a b : Byte, printableTypeByte a = true → printableTypeByte b = true → ∀ r s : List Byte,
    copyrightSubst a ++ r = copyrightSubst b ++ s → a = b ∧ r = s := by
  intro a b ha hb r s h
  have hc2 : ∀ c : Byte, printableTypeByte c = true → c ≠ 0xc2#8 := by decide +kernel
  unfold copyrightSubst at h
  split at h <;> split at h
  · rename_i h1 h2
    simp only [List.cons_append, List.nil_append, List.cons.injEq, true_and] at h
    exact ⟨by rw [h1, h2], h⟩
  · simp only [List.cons_append, List.nil_append, List.cons.injEq] at h
    exact absurd h.1.symm (hc2 b hb)
  · simp only [List.cons_append, List.nil_append, List.cons.injEq] at h
    exact absurd h.1 (hc2 a ha)
  · simpa using h

theorem not_hex_head : ∀ c : Byte, printableTypeByte c = true → ∃ x, copyrightSubst c = [x] ∨ ∃ y, copyrightSubst c = [x, y] ∧ isHex x = false := by
  intro c _
  unfold copyrightSubst
  split
  · exact ⟨_, .inr ⟨_, rfl, by decide⟩⟩
  · exact ⟨c, .inl rfl⟩

/-- A text of the second form does not begin like one of the first form. -/
theorem forms_differ (b c d : Byte) (a : Byte) (ha : printableTypeByte a = true) (hb : printableTypeByte b = true) (hc : printableTypeByte c = true)
    (hd : printableTypeByte d = true) (h1 h2 h3 h4 h5 h6 h7 h8 : Byte) (k3 : isHex h3 = true) (r s : List Byte)
    (k1 : isHex h1 = true) (k2 : isHex h2 = true)
    (h : copyrightSubst a ++ copyrightSubst b ++ copyrightSubst c ++ copyrightSubst d ++ 0x5d#8 :: r =
      0x30#8 :: 0x78#8 :: h1 :: h2 :: h3 :: h4 :: h5 :: h6 :: h7 :: h8 :: s) : False := by
  have hx : isHex 0xc2#8 = false := by decide
  have hy : isHex 0x5d#8 = false := by decide
  unfold copyrightSubst at h
  by_cases ea : a = 0xa9#8
  · simp [ea] at h
  by_cases eb : b = 0xa9#8
  · simp [ea, eb] at h
  by_cases ec : c = 0xa9#8
  · simp [ea, eb, ec] at h
    rw [← h.2.2.1] at k1; rw [hx] at k1; cases k1
  by_cases ed : d = 0xa9#8
  · simp [ea, eb, ec, ed] at h
    rw [← h.2.2.2.1] at k2; rw [hx] at k2; cases k2
  · simp [ea, eb, ec, ed] at h
    rw [← h.2.2.2.2.1] at k3; rw [hy] at k3; cases k3

theorem type_split (t u : BoxType) (r s : List Byte) (h : t.toText ++ 0x5d#8 :: r = u.toText ++ 0x5d#8 :: s) : t = u ∧ r = s := by
  obtain ⟨a, b, c, d⟩ := t
  obtain ⟨a', b', c', d'⟩ := u
  have hd : ∀ x : Byte, ∃ p q, hex2 x = [p, q] ∧ isHex p = true ∧ isHex q = true := fun x =>
    ⟨_, _, rfl, hex2_isHex x _ (by simp [hex2]), hex2_isHex x _ (by simp [hex2])⟩
  simp only [BoxType.toText] at h
  split at h <;> rename_i h1 <;> split at h <;> rename_i h2
  · simp only [Bool.and_eq_true] at h1 h2
    obtain ⟨⟨⟨p1, p2⟩, p3⟩, p4⟩ := h1
    obtain ⟨⟨⟨q1, q2⟩, q3⟩, q4⟩ := h2
    simp only [List.flatMap_cons, List.flatMap_nil, List.append_nil, List.append_assoc] at h
    obtain ⟨e1, h⟩ := subst_split _ _ p1 q1 _ _ h
    obtain ⟨e2, h⟩ := subst_split _ _ p2 q2 _ _ h
    obtain ⟨e3, h⟩ := subst_split _ _ p3 q3 _ _ h
    obtain ⟨e4, h⟩ := subst_split _ _ p4 q4 _ _ h
    exact ⟨by rw [e1, e2, e3, e4], by simpa using h⟩
  · exfalso
    simp only [Bool.and_eq_true] at h1
    obtain ⟨⟨⟨p1, p2⟩, p3⟩, p4⟩ := h1
    obtain ⟨x1, x2, ex, kx1, kx2⟩ := hd a'
    obtain ⟨y1, y2, ey, ky1, ky2⟩ := hd b'
    obtain ⟨z1, z2, ez, -, -⟩ := hd c'
    obtain ⟨w1, w2, ew, -, -⟩ := hd d'
    rw [ex, ey, ez, ew] at h
    exact forms_differ b c d a p1 p2 p3 p4 x1 x2 y1 y2 z1 z2 w1 w2 ky1 r (0x5d#8 :: s) kx1 kx2 (by simpa using h)
  · exfalso
    simp only [Bool.and_eq_true] at h2
    obtain ⟨⟨⟨p1, p2⟩, p3⟩, p4⟩ := h2
    obtain ⟨x1, x2, ex, kx1, kx2⟩ := hd a
    obtain ⟨y1, y2, ey, ky1, ky2⟩ := hd b
    obtain ⟨z1, z2, ez, -, -⟩ := hd c
    obtain ⟨w1, w2, ew, -, -⟩ := hd d
    rw [ex, ey, ez, ew] at h
    exact forms_differ b' c' d' a' p1 p2 p3 p4 x1 x2 y1 y2 z1 z2 w1 w2 ky1 s (0x5d#8 :: r) kx1 kx2 (by simpa using h.symm)
  · have hl : ∀ x y z w : Byte, ([0x30#8, 0x78#8] ++ hex2 x ++ hex2 y ++ hex2 z ++ hex2 w).length = 10 := fun _ _ _ _ => rfl
    obtain ⟨e0, e5⟩ := List.append_inj h (by rw [hl, hl])
    obtain ⟨e1, e4⟩ := List.append_inj' e0 rfl
    obtain ⟨e1, e3⟩ := List.append_inj' e1 rfl
    obtain ⟨e1, e2⟩ := List.append_inj' e1 rfl
    have e1 := List.append_cancel_left e1
    rw [hex2_inj _ _ e1, hex2_inj _ _ e2, hex2_inj _ _ e3, hex2_inj _ _ e4]
    exact ⟨rfl, by simpa using e5⟩

theorem oneLine_type (t : BoxType) : OneLine t.toText := by
  obtain ⟨a, b, c, d⟩ := t
  have hp : ∀ x : Byte, printableTypeByte x = true → OneLine (copyrightSubst x) := by
    unfold OneLine; decide +kernel
  simp only [BoxType.toText]
  split
  · rename_i h1
    simp only [Bool.and_eq_true] at h1
    obtain ⟨⟨⟨p1, p2⟩, p3⟩, p4⟩ := h1
    simp only [List.flatMap_cons, List.flatMap_nil, List.append_nil]
    exact (hp a p1).append ((hp b p2).append ((hp c p3).append (hp d p4)))
  · exact ((((OneLine.append (by unfold OneLine; decide) (oneLine_of_hex (hex2_isHex a))).append (oneLine_of_hex (hex2_isHex b))).append
      (oneLine_of_hex (hex2_isHex c)))).append (oneLine_of_hex (hex2_isHex d))

/-! ## Lines -/

theorem pad_split (m n : Nat) (r s : List Byte) (h : List.replicate m 0x20#8 ++ 0x5b#8 :: r = List.replicate n 0x20#8 ++ 0x5b#8 :: s) : m = n ∧ r = s := by
  induction m generalizing n with
  | zero =>
    cases n with
    | zero => simpa using h
    | succ n => simp [List.replicate_succ] at h
  | succ m ih =>
    cases n with
    | zero => simp [List.replicate_succ] at h
    | succ n =>
      simp only [List.replicate_succ, List.cons_append, List.cons.injEq, true_and] at h
      obtain ⟨e1, e2⟩ := ih n h
      exact ⟨by rw [e1], e2⟩

/-- A line whose fields can be read back. -/
structure Good (l : Line) : Prop where
  wf : WfFields l.fields
  nf : NF (quotedTexts l.fields)

theorem line_oneLine (l : Line) (h : Good l) : OneLine l.text := by
  unfold Line.text
  have hd : ∀ n, OneLine (dec n) := fun n => oneLine_of_digits (dec_digits n)
  have hr : OneLine (List.replicate (2 * l.depth) 0x20#8) := by
    unfold OneLine; simp only [List.mem_replicate, not_and]; intro _; decide
  refine ((((((hr.append (by unfold OneLine; decide)).append (oneLine_type _)).append (by unfold OneLine; decide)).append (hd _)).append
    (by unfold OneLine; decide)).append (hd _)).append ?_
  split
  · simp [OneLine]
  · exact OneLine.append (by unfold OneLine; decide) (oneLine_render _ h.wf h.nf)

/-- A digit-free beginning or nothing. -/
theorem digits_split' {a b r s : List Byte} (ha : ∀ x ∈ a, isDigit x = true) (hb : ∀ x ∈ b, isDigit x = true)
    (hr : r = [] ∨ ∃ c t, r = c :: t ∧ isDigit c = false) (hs : s = [] ∨ ∃ c t, s = c :: t ∧ isDigit c = false) (h : a ++ r = b ++ s) :
    a = b ∧ r = s := by
  have mark : ∀ r : List Byte, (r = [] ∨ ∃ c t, r = c :: t ∧ isDigit c = false) → ∃ c t, r ++ [0x0a#8] = c :: t ∧ isDigit c = false := by
    rintro r (rfl | ⟨c, t, rfl, hc⟩)
    · exact ⟨_, _, rfl, by decide⟩
    · exact ⟨c, t ++ [0x0a#8], rfl, hc⟩
  obtain ⟨c, t, e1, hc⟩ := mark r hr
  obtain ⟨d, u, e2, hd⟩ := mark s hs
  have h' : a ++ c :: t = b ++ d :: u := by rw [← e1, ← e2, ← List.append_assoc, ← List.append_assoc, h]
  obtain ⟨k1, -, -⟩ := digits_split ha hb hc hd h'
  subst k1
  exact ⟨rfl, List.append_cancel_left h⟩

theorem render_ne_nil' {fs : List Field} (h : fs ≠ []) : render fs ≠ [] := by
  cases fs with
  | nil => exact absurd rfl h
  | cons f l => rw [render_cons]; simp

theorem line_inj (l m : Line) (hl : Good l) (hm : Good m) (h : l.text = m.text) : l = m := by
  obtain ⟨d, t, o, z, f⟩ := l
  obtain ⟨d', t', o', z', f'⟩ := m
  simp only [Line.text, List.append_assoc, List.cons_append, List.nil_append] at h
  obtain ⟨e1, h⟩ := pad_split _ _ _ _ h
  obtain ⟨e2, h⟩ := type_split _ _ _ _ h
  simp only [List.cons.injEq, true_and] at h
  obtain ⟨e3, -, h⟩ := digits_split (dec_digits _) (dec_digits _) (by decide) (by decide) h
  simp only [List.cons.injEq, true_and] at h
  have tail : ∀ f : List Field, (if f.isEmpty = true then [] else 0x20#8 :: render f) = [] ∨
      ∃ c t, (if f.isEmpty = true then [] else 0x20#8 :: render f) = c :: t ∧ isDigit c = false := by
    intro f
    cases f with
    | nil => exact .inl rfl
    | cons x l => exact .inr ⟨0x20#8, render (x :: l), rfl, by decide⟩
  obtain ⟨e4, h⟩ := digits_split' (dec_digits _) (dec_digits _) (tail f) (tail f') h
  have e5 : f = f' := by
    cases f with
    | nil =>
      cases f' with
      | nil => rfl
      | cons => simp at h
    | cons x l =>
      cases f' with
      | nil => simp at h
      | cons y m =>
        simp only [List.isEmpty_cons, Bool.false_eq_true, if_false, List.cons.injEq, true_and] at h
        exact render_inj _ _ hl.wf hm.wf h
  have e1 : d = d' := by omega
  rw [e1, e2, dec_inj _ _ e3, dec_inj _ _ e4, e5]

theorem newline_split {a b r s : List Byte} (ha : OneLine a) (hb : OneLine b) (h : a ++ 0x0a#8 :: r = b ++ 0x0a#8 :: s) : a = b ∧ r = s := by
  unfold OneLine at ha hb
  induction a generalizing b with
  | nil =>
    cases b with
    | nil => simpa using h
    | cons y b => simp only [List.nil_append, List.cons_append, List.cons.injEq] at h; rw [← h.1] at hb; simp at hb
  | cons x a ih =>
    cases b with
    | nil => simp only [List.nil_append, List.cons_append, List.cons.injEq] at h; rw [h.1] at ha; simp at ha
    | cons y b =>
      simp only [List.cons_append, List.cons.injEq] at h
      simp only [List.mem_cons, not_or] at ha hb
      obtain ⟨e1, e2⟩ := ih ha.2 hb.2 h.2
      exact ⟨by rw [h.1, e1], e2⟩

theorem printed_inj (l m : List Line) (hl : ∀ x ∈ l, Good x) (hm : ∀ x ∈ m, Good x) (h : printed l = printed m) : l = m := by
  induction l generalizing m with
  | nil =>
    cases m with
    | nil => rfl
    | cons y m => simp [printed] at h
  | cons x l ih =>
    cases m with
    | nil => simp [printed] at h
    | cons y m =>
      simp only [printed, List.flatMap_cons, List.append_assoc, List.cons_append, List.nil_append] at h
      obtain ⟨e1, e2⟩ := newline_split (line_oneLine x (hl x (by simp))) (line_oneLine y (hm y (by simp))) h
      rw [line_inj x y (hl x (by simp)) (hm y (by simp)) e1, ih m (fun z hz => hl z (by simp [hz])) (fun z hz => hm z (by simp [hz])) e2]

end DumpLines
end Mp4
