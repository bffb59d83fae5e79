import Verif.Lemmas.DumpText
import Verif.Lemmas.Numerals

/-! # The notation of the dump is unambiguous -/

namespace Mp4
namespace DumpInj

open Spec DumpText Numerals

/-- Characters that end a value. -/
def isDelim (c : Byte) : Bool := c == 0x20#8 || c == 0x5d#8 || c == 0x7d#8 || c == 0x2c#8 || c == 0x0a#8

/-- A text at which a value has ended. -/
def AtDelim (r : List Byte) : Prop := r = [] ∨ ∃ c r', r = c :: r' ∧ isDelim c = true

theorem tok_split {a b r s : List Byte} (ha : ∀ x ∈ a, isDelim x = false) (hb : ∀ x ∈ b, isDelim x = false)
    (hr : AtDelim r) (hs : AtDelim s) (h : a ++ r = b ++ s) : a = b ∧ r = s := by
  induction a generalizing b with
  | nil =>
    cases b with
    | nil => simpa using h
    | cons y b =>
      exfalso
      rcases hr with rfl | ⟨c, r', rfl, hc⟩
      · simp at h
      · simp only [List.nil_append, List.cons_append, List.cons.injEq] at h
        rw [h.1, hb y (by simp)] at hc; exact absurd hc (by decide)
  | cons x a ih =>
    cases b with
    | nil =>
      exfalso
      rcases hs with rfl | ⟨c, r', rfl, hc⟩
      · simp at h
      · simp only [List.nil_append, List.cons_append, List.cons.injEq] at h
        rw [← h.1, ha x (by simp)] at hc; exact absurd hc (by decide)
    | cons y b =>
      simp only [List.cons_append, List.cons.injEq] at h
      obtain ⟨e1, e2⟩ := ih (fun z hz => ha z (by simp [hz])) (fun z hz => hb z (by simp [hz])) h.2
      exact ⟨by rw [h.1, e1], e2⟩

/-- Upper-case letters. -/
def isUpper (c : Byte) : Bool := 0x41#8 ≤ c && c ≤ 0x5a#8

/-- Which kind of scalar a text is. -/
def cls (t : List Byte) : Nat :=
  match t with
  | [] => 4
  | c :: r =>
    if isUpper c then 4 else if c = 0x74#8 ∨ c = 0x66#8 then 3 else if 0x78#8 ∈ c :: r then 1 else if 0x2e#8 ∈ c :: r then 2 else 0

/-- Scalars as they occur outside of flags. -/
def Wf : Scalar → Prop
  | .num _ => True
  | .hex _ => True
  | .flags .. => False
  | .fraction _ _ _ => True
  | .bool _ => True
  | .word w => (∀ c ∈ w, isDelim c = false) ∧ (∀ c r, w = c :: r → isUpper c = true)

/-- The index of a kind. -/
def kind : Scalar → Nat
  | .num _ => 0
  | .hex _ => 1
  | .fraction .. => 2
  | .bool _ => 3
  | .word _ => 4
  | .flags .. => 5

theorem digit_class : ∀ c : Byte, isDigit c = true → isUpper c = false ∧ c ≠ 0x74#8 ∧ c ≠ 0x66#8 ∧ c ≠ 0x78#8 ∧ c ≠ 0x2e#8 ∧ c ≠ 0x2d#8 ∧ isDelim c = false := by
  decide +kernel
theorem hex_class : ∀ c : Byte, isHex c = true → c ≠ 0x78#8 ∧ isDelim c = false := by decide +kernel

theorem cls_head {t : List Byte} {c : Byte} {r : List Byte} (e : t = c :: r) (h : isDigit c = true ∨ c = 0x2d#8) :
    cls t = if 0x78#8 ∈ t then 1 else if 0x2e#8 ∈ t then 2 else 0 := by
  subst e
  have h1 : isUpper c = false ∧ c ≠ 0x74#8 ∧ c ≠ 0x66#8 := by
    rcases h with h | rfl
    · have := digit_class c h; exact ⟨this.1, this.2.1, this.2.2.1⟩
    · decide
  have e1 : ¬ (isUpper c = true) := by rw [h1.1]; decide
  have e2 : ¬ (c = 0x74#8 ∨ c = 0x66#8) := fun h => h.elim h1.2.1 h1.2.2
  show (if isUpper c = true then _ else _) = _
  rw [if_neg e1, if_neg e2]

theorem sign_dec_head (neg : Bool) (n : Nat) (r : List Byte) :
    ∃ c t, sign neg ++ dec n ++ r = c :: t ∧ (isDigit c = true ∨ c = 0x2d#8) := by
  cases neg with
  | true => exact ⟨0x2d#8, _, rfl, .inr rfl⟩
  | false =>
    cases h : dec n with
    | nil => exact absurd h (dec_ne_nil n)
    | cons c t => exact ⟨c, t ++ r, by simp [sign], .inl (dec_digits n c (by rw [h]; simp))⟩

theorem mem_sign {neg : Bool} {c : Byte} (h : c ∈ sign neg) : c = 0x2d#8 := by
  cases neg <;> simp [sign] at h; exact h

theorem cls_text (s : Scalar) (h : Wf s) : cls s.text = kind s := by
  cases s with
  | flags => exact h.elim
  | num n =>
    obtain ⟨c, t, e, hc⟩ := sign_dec_head (n < 0) n.natAbs []
    rw [List.append_nil] at e
    have hx : ∀ y ∈ sign (decide (n < 0)) ++ dec n.natAbs, y ≠ 0x78#8 ∧ y ≠ 0x2e#8 := by
      intro y hy
      rw [List.mem_append] at hy
      rcases hy with hy | hy
      · rw [mem_sign hy]; decide
      · have := digit_class y (dec_digits _ y hy); exact ⟨this.2.2.2.1, this.2.2.2.2.1⟩
    show cls (sign (decide (n < 0)) ++ dec n.natAbs) = 0
    rw [cls_head e hc, if_neg (fun hm => (hx _ hm).1 rfl), if_neg (fun hm => (hx _ hm).2 rfl)]
  | hex n =>
    have : ∃ c t, sign (decide (n < 0)) ++ hexNat n.natAbs = c :: t ∧ (isDigit c = true ∨ c = 0x2d#8) := by
      cases (decide (n < 0)) with
      | true => exact ⟨0x2d#8, _, rfl, .inr rfl⟩
      | false => exact ⟨0x30#8, _, rfl, .inl (by decide)⟩
    obtain ⟨c, t, e, hc⟩ := this
    show cls (sign (decide (n < 0)) ++ hexNat n.natAbs) = 1
    rw [cls_head e hc, if_pos (by simp [hexNat])]
  | fraction neg units places =>
    obtain ⟨c, t, e, hc⟩ := sign_dec_head neg (units / 10 ^ places) (b!"." ++ decPad places units)
    have hx : ∀ y ∈ sign neg ++ dec (units / 10 ^ places) ++ (b!"." ++ decPad places units), y ≠ 0x78#8 := by
      intro y hy
      simp only [List.mem_append, List.mem_singleton] at hy
      rcases hy with (hy | hy) | hy | hy
      · rw [mem_sign hy]; decide
      · exact (digit_class y (dec_digits _ y hy)).2.2.2.1
      · rw [hy]; decide
      · exact (digit_class y (decPad_digits _ _ y hy)).2.2.2.1
    show cls (sign neg ++ dec (units / 10 ^ places) ++ b!"." ++ decPad places units) = 2
    rw [List.append_assoc, cls_head e hc, if_neg (fun hm => hx _ hm rfl), if_pos (by simp)]
  | bool b => cases b <;> decide
  | word w =>
    cases w with
    | nil => rfl
    | cons c r =>
      show (if isUpper c = true then _ else _) = _
      rw [if_pos (h.2 c r rfl)]; rfl

theorem text_tok (s : Scalar) (h : Wf s) : ∀ c ∈ s.text, isDelim c = false := by
  cases s with
  | flags => exact h.elim
  | num n =>
    intro c hc
    simp only [Scalar.text, List.mem_append] at hc
    rcases hc with hc | hc
    · rw [mem_sign hc]; decide
    · exact (digit_class c (dec_digits _ c hc)).2.2.2.2.2.2
  | hex n =>
    intro c hc
    simp only [Scalar.text, hexNat, List.mem_append, List.mem_cons, List.not_mem_nil, or_false] at hc
    rcases hc with hc | (hc | hc) | hc
    · rw [mem_sign hc]; decide
    · rw [hc]; decide
    · rw [hc]; decide
    · exact (hex_class c (hexText_digits _ c hc)).2
  | fraction neg units places =>
    intro c hc
    simp only [Scalar.text, List.mem_append, List.mem_singleton] at hc
    rcases hc with ((hc | hc) | hc) | hc
    · rw [mem_sign hc]; decide
    · exact (digit_class c (dec_digits _ c hc)).2.2.2.2.2.2
    · rw [hc]; decide
    · exact (digit_class c (decPad_digits _ _ c hc)).2.2.2.2.2.2
  | bool b => cases b <;> decide
  | word w => exact h.1

theorem sign_split {a b : Bool} {r s : List Byte} (hr : ∀ c t, r = c :: t → c ≠ 0x2d#8) (hs : ∀ c t, s = c :: t → c ≠ 0x2d#8)
    (h : sign a ++ r = sign b ++ s) : a = b ∧ r = s := by
  cases a <;> cases b <;> simp only [sign, Bool.false_eq_true, if_false, if_true, List.nil_append, List.cons_append] at h
  · exact ⟨rfl, h⟩
  · exact absurd rfl (hr _ _ h)
  · exact absurd rfl (hs _ _ h.symm)
  · exact ⟨rfl, by simpa using h⟩

theorem dec_head (n : Nat) (r : List Byte) : ∀ c t, dec n ++ r = c :: t → c ≠ 0x2d#8 := by
  intro c t e
  cases h : dec n with
  | nil => exact absurd h (dec_ne_nil n)
  | cons x y =>
    rw [h, List.cons_append] at e
    have : x = c := (List.cons.inj e).1
    rw [← this]
    exact (digit_class x (dec_digits n x (by rw [h]; simp))).2.2.2.2.2.1

theorem scalar_inj (s u : Scalar) (hs : Wf s) (hu : Wf u) (h : s.text = u.text) : s = u := by
  have hk : kind s = kind u := by rw [← cls_text s hs, ← cls_text u hu, h]
  cases s <;> cases u <;> first | exact hs.elim | exact hu.elim | (simp [kind] at hk; done) | skip
  · rename_i m n
    have := sign_split (by simpa using dec_head m.natAbs []) (by simpa using dec_head n.natAbs []) h
    have e2 := dec_inj _ _ this.2
    have e1 := this.1
    simp only [decide_eq_decide] at e1
    congr 1; omega
  · rename_i m n
    have hh : ∀ (k : Nat) (c : Byte) (t : List Byte), hexNat k = c :: t → c ≠ 0x2d#8 := by
      intro k c t e
      simp only [hexNat, List.cons_append, List.cons.injEq] at e
      rw [← e.1]; decide
    have := sign_split (hh m.natAbs) (hh n.natAbs) h
    have e2 := hexNat_inj _ _ this.2
    have e1 := this.1
    simp only [decide_eq_decide] at e1
    congr 1; omega
  · rename_i a u p b v q
    simp only [Scalar.text, List.append_assoc] at h
    obtain ⟨e0, h'⟩ := sign_split (dec_head _ _) (dec_head _ _) h
    subst e0
    simp only [List.cons_append, List.nil_append] at h'
    obtain ⟨e1, -, e2⟩ := digits_split (dec_digits _) (dec_digits _) (by decide) (by decide) h'
    have hl : p = q := by simpa [decPad_length] using congrArg List.length e2
    subst hl
    have e3 := dec_inj _ _ e1
    have e4 := decPad_inj _ _ _ e2
    have := Nat.div_add_mod u (10 ^ p)
    have := Nat.div_add_mod v (10 ^ p)
    have : u = v := by rw [e3, e4] at *; omega
    rw [this]
  · rename_i a b
    cases a <;> cases b <;> first | rfl | exact absurd h (by decide)
  · rename_i a b
    exact congrArg _ h

/-! ## Values -/

/-- Flags. -/
def isFlags : Item → Bool
  | .scalar (.flags _ _ _) => true
  | _ => false
/-- Lists without commas. -/
def isSpaced : Item → Bool
  | .spaced _ => true
  | _ => false

mutual
/-- Values whose notation can be read back, when it is known from the label which ones are flags and which ones are lists without commas. -/
def WfRec : Item → Prop
  | .scalar s => isFlags (.scalar s) = true ∨ Wf s
  | .quoted s => 0x22#8 ∉ s
  | .list l => WfItems l
  | .spaced l => WfItems l
  | .record fs => WfFields fs
/-- Elements of a list. -/
def WfItems : List Item → Prop
  | [] => True
  | x :: l => ((isFlags x = false ∧ isSpaced x = false ∧ WfRec x) ∧ x.text ≠ []) ∧ WfItems l
/-- Labelled values: flags and the lists without commas are told by their labels. -/
def WfFields : List (List Byte × Item) → Prop
  | [] => True
  | (label, x) :: l =>
    (label ≠ [] ∧ label.head? ≠ some 0x7d#8 ∧ (0x3d#8 ∉ label ∧ 0x0a#8 ∉ label) ∧ (label = b!"Flags" ↔ isFlags x = true) ∧ (label = b!"KIDs" ↔ isSpaced x = true) ∧
      WfRec x) ∧
    WfFields l
end

/-- Values whose notation can be read back. -/
def WfItem (x : Item) : Prop := isFlags x = false ∧ isSpaced x = false ∧ WfRec x

theorem wf_scalar {s : Scalar} (h : WfItem (.scalar s)) : Wf s := by
  obtain ⟨h1, -, h3⟩ := h
  simp only [WfRec, h1, Bool.false_eq_true, false_or] at h3
  exact h3

theorem quote_split {a b r s : List Byte} (ha : 0x22#8 ∉ a) (hb : 0x22#8 ∉ b) (h : a ++ 0x22#8 :: r = b ++ 0x22#8 :: s) : a = b ∧ r = s := by
  induction a generalizing b with
  | nil =>
    cases b with
    | nil => simpa using h
    | cons y b => simp only [List.nil_append, List.cons_append, List.cons.injEq] at h; rw [← h.1] at hb; simp at hb
  | cons x a ih =>
    cases b with
    | nil => simp only [List.nil_append, List.cons_append, List.cons.injEq] at h; rw [h.1] at ha; simp at ha
    | cons y b =>
      simp only [List.cons_append, List.cons.injEq] at h
      simp only [List.mem_cons, not_or] at ha hb
      obtain ⟨e1, e2⟩ := ih ha.2 hb.2 h.2
      exact ⟨by rw [h.1, e1], e2⟩

theorem label_split {a b r s : List Byte} (ha : 0x3d#8 ∉ a) (hb : 0x3d#8 ∉ b) (h : a ++ 0x3d#8 :: r = b ++ 0x3d#8 :: s) : a = b ∧ r = s := by
  induction a generalizing b with
  | nil =>
    cases b with
    | nil => simpa using h
    | cons y b => simp only [List.nil_append, List.cons_append, List.cons.injEq] at h; rw [← h.1] at hb; simp at hb
  | cons x a ih =>
    cases b with
    | nil => simp only [List.nil_append, List.cons_append, List.cons.injEq] at h; rw [h.1] at ha; simp at ha
    | cons y b =>
      simp only [List.cons_append, List.cons.injEq] at h
      simp only [List.mem_cons, not_or] at ha hb
      obtain ⟨e1, e2⟩ := ih ha.2 hb.2 h.2
      exact ⟨by rw [h.1, e1], e2⟩

/-- The first character of a value tells its kind. -/
def shape (t : List Byte) : Nat :=
  match t with
  | [] => 0
  | c :: _ => if c = 0x22#8 then 1 else if c = 0x5b#8 then 2 else if c = 0x7b#8 then 3 else 0

theorem scalar_head (s : Scalar) (h : Wf s) (c : Byte) (t : List Byte) (e : s.text = c :: t) :
    isUpper c = true ∨ c = 0x74#8 ∨ c = 0x66#8 ∨ isDigit c = true ∨ c = 0x2d#8 := by
  cases s with
  | flags => exact h.elim
  | num n =>
    obtain ⟨c', t', e', hc⟩ := sign_dec_head (n < 0) n.natAbs []
    rw [List.append_nil] at e'
    have : c :: t = c' :: t' := by rw [← e, ← e']; rfl
    rw [(List.cons.inj this).1]
    rcases hc with hc | hc <;> simp [hc]
  | hex n =>
    simp only [Scalar.text, hexNat] at e
    by_cases hn : n < 0
    · simp only [hn, decide_true, sign, if_true, List.cons_append, List.cons.injEq] at e
      right; right; right; right; exact e.1.symm
    · simp only [hn, decide_false, sign, Bool.false_eq_true, if_false, List.nil_append, List.cons_append, List.cons.injEq] at e
      rw [← e.1]; right; right; right; left; decide
  | fraction neg u p =>
    obtain ⟨c', t', e', hc⟩ := sign_dec_head neg (u / 10 ^ p) (b!"." ++ decPad p u)
    have : c :: t = c' :: t' := by rw [← e, ← e']; simp [Scalar.text]
    rw [(List.cons.inj this).1]
    rcases hc with hc | hc <;> simp [hc]
  | bool b => cases b <;> (simp only [Scalar.text, if_true, if_false, Bool.false_eq_true, List.cons.injEq] at e; rw [← e.1]; decide)
  | word w => left; exact h.2 c t e

theorem start_class : ∀ c : Byte, isUpper c = true ∨ c = 0x74#8 ∨ c = 0x66#8 ∨ isDigit c = true ∨ c = 0x2d#8 →
    c ≠ 0x22#8 ∧ c ≠ 0x5b#8 ∧ c ≠ 0x7b#8 ∧ isDelim c = false := by decide +kernel

theorem delim_class : ∀ c : Byte, isDelim c = true → c ≠ 0x22#8 ∧ c ≠ 0x5b#8 ∧ c ≠ 0x7b#8 := by decide +kernel

theorem scalar_shape (s : Scalar) (h : Wf s) (r : List Byte) (hr : AtDelim r) : shape (s.text ++ r) = 0 := by
  cases e : s.text with
  | nil =>
    rw [List.nil_append]
    rcases hr with rfl | ⟨c, r', rfl, hc⟩
    · rfl
    · obtain ⟨h1, h2, h3⟩ := delim_class c hc
      simp [shape, h1, h2, h3]
  | cons c t =>
    obtain ⟨h1, h2, h3, -⟩ := start_class c (scalar_head s h c t e)
    simp [shape, h1, h2, h3]

/-- A value in a list does not begin with a character that ends a value. -/
theorem item_head (x : Item) (h : WfItem x) (hne : x.text ≠ []) : ∃ c t, x.text = c :: t ∧ isDelim c = false := by
  cases x with
  | scalar s =>
    simp only [Item.text] at hne ⊢
    cases e : s.text with
    | nil => exact absurd e hne
    | cons c t => exact ⟨c, t, rfl, (start_class c (scalar_head s (wf_scalar h) c t e)).2.2.2⟩
  | quoted s => exact ⟨_, _, by simp only [Item.text, List.cons_append, List.nil_append]; rfl, by decide⟩
  | list l => exact ⟨_, _, by simp only [Item.text, List.cons_append, List.nil_append]; rfl, by decide⟩
  | spaced l => exact absurd h.2.1 (by simp [isSpaced])
  | record l => exact ⟨_, _, by simp only [Item.text, List.cons_append, List.nil_append]; rfl, by decide⟩

/-- Elements after the first one. -/
def more (sep : List Byte) (l : List Item) : List Byte := l.flatMap (fun x => sep ++ x.text)

theorem list_unfold (sep : List Byte) (l : List Item) :
    List.intercalate sep (Item.texts l) = match l with | [] => [] | x :: l => x.text ++ more sep l := by
  cases l with
  | nil => simp [Item.texts, List.intercalate]
  | cons x l => simp [texts_eq, intercalate_cons, more, List.flatMap_map]

theorem record_unfold (l : List Field) :
    List.intercalate b!" " (Item.fieldTexts l) = match l with | [] => [] | f :: l => f.1 ++ b!"=" ++ f.2.text ++ rest l := by
  cases l with
  | nil => rfl
  | cons x l => exact render_cons x l

theorem atDelim_more (sep : List Byte) (hsep : ∃ c t, sep = c :: t ∧ isDelim c = true) (l : List Item) (r : List Byte) :
    AtDelim (more sep l ++ 0x5d#8 :: r) := by
  cases l with
  | nil => exact .inr ⟨_, _, rfl, by decide⟩
  | cons x l =>
    obtain ⟨c, t, rfl, hc⟩ := hsep
    exact .inr ⟨c, _, by simp only [more, List.flatMap_cons, List.cons_append]; rfl, hc⟩

/-- Where a list of fields has ended. -/
def AtEnd (r : List Byte) : Prop := r = [] ∨ ∃ r', r = 0x7d#8 :: r'

theorem AtEnd.delim {r : List Byte} (h : AtEnd r) : AtDelim r := by
  rcases h with h | ⟨r', h⟩
  · exact .inl h
  · exact .inr ⟨_, _, h, by decide⟩

theorem atDelim_rest (l : List Field) (r : List Byte) (hr : AtEnd r) : AtDelim (rest l ++ r) := by
  cases l with
  | nil => simpa [rest_nil] using hr.delim
  | cons x l => exact .inr ⟨0x20#8, _, by simp only [rest_cons, List.cons_append, List.nil_append]; rfl, by decide⟩

/-- `more` of equal lists. -/
theorem more_inj (sep : List Byte) (hsep : ∃ c t, sep = c :: t ∧ isDelim c = true ∧ c ≠ 0x5d#8) (l : List Item)
    (ih : ∀ x ∈ l, ∀ j r s, WfItem x → WfItem j → AtDelim r → AtDelim s → x.text ++ r = j.text ++ s → x = j ∧ r = s) :
    ∀ m r s, WfItems l → WfItems m → more sep l ++ 0x5d#8 :: r = more sep m ++ 0x5d#8 :: s → l = m ∧ r = s := by
  have hsep' : ∃ c t, sep = c :: t ∧ isDelim c = true := by obtain ⟨c, t, a, b, -⟩ := hsep; exact ⟨c, t, a, b⟩
  induction l with
  | nil =>
    intro m r s _ _ h
    cases m with
    | nil => exact ⟨rfl, by simpa [more] using h⟩
    | cons y m =>
      obtain ⟨c, t, rfl, -, hc⟩ := hsep
      simp only [more, List.flatMap_nil, List.nil_append, List.flatMap_cons, List.cons_append, List.cons.injEq] at h
      exact absurd h.1.symm hc
  | cons x l IH =>
    intro m r s hl hm h
    cases m with
    | nil =>
      obtain ⟨c, t, rfl, -, hc⟩ := hsep
      simp only [more, List.flatMap_nil, List.nil_append, List.flatMap_cons, List.cons_append, List.cons.injEq] at h
      exact absurd h.1 hc
    | cons y m =>
      simp only [WfItems] at hl hm
      simp only [more, List.flatMap_cons, List.append_assoc, List.append_cancel_left_eq] at h
      obtain ⟨e1, e2⟩ := ih x (by simp) y _ _ hl.1.1 hm.1.1 (atDelim_more sep hsep' l r) (atDelim_more sep hsep' m s) h
      obtain ⟨e3, e4⟩ := IH (fun z hz => ih z (by simp [hz])) m r s hl.2 hm.2 e2
      exact ⟨by rw [e1, e3], e4⟩

theorem list_inj (sep : List Byte) (hsep : ∃ c t, sep = c :: t ∧ isDelim c = true ∧ c ≠ 0x5d#8) (l : List Item)
    (ih : ∀ x ∈ l, ∀ j r s, WfItem x → WfItem j → AtDelim r → AtDelim s → x.text ++ r = j.text ++ s → x = j ∧ r = s)
    (m : List Item) (r s : List Byte) (hl : WfItems l) (hm : WfItems m)
    (h : List.intercalate sep (Item.texts l) ++ 0x5d#8 :: r = List.intercalate sep (Item.texts m) ++ 0x5d#8 :: s) : l = m ∧ r = s := by
  have hsep' : ∃ c t, sep = c :: t ∧ isDelim c = true := by obtain ⟨c, t, a, b, -⟩ := hsep; exact ⟨c, t, a, b⟩
  rw [list_unfold, list_unfold] at h
  cases l with
  | nil =>
    cases m with
    | nil => exact ⟨rfl, by simpa using h⟩
    | cons y m =>
      simp only [WfItems] at hm
      obtain ⟨c, t, e, hc⟩ := item_head y hm.1.1 hm.1.2
      simp only [e, List.nil_append, List.cons_append, List.cons.injEq] at h
      rw [← h.1] at hc; exact absurd hc (by decide)
  | cons x l =>
    cases m with
    | nil =>
      simp only [WfItems] at hl
      obtain ⟨c, t, e, hc⟩ := item_head x hl.1.1 hl.1.2
      simp only [e, List.nil_append, List.cons_append, List.cons.injEq] at h
      rw [h.1] at hc; exact absurd hc (by decide)
    | cons y m =>
      simp only [WfItems] at hl hm
      simp only [List.append_assoc] at h
      obtain ⟨e1, e2⟩ := ih x (by simp) y _ _ hl.1.1 hm.1.1 (atDelim_more sep hsep' l r) (atDelim_more sep hsep' m s) h
      obtain ⟨e3, e4⟩ := more_inj sep hsep l (fun z hz => ih z (by simp [hz])) m r s hl.2 hm.2 e2
      exact ⟨by rw [e1, e3], e4⟩

/-- What the induction says about a value. -/
def ItemInj (x : Item) : Prop :=
  ∀ j r s, WfItem x → WfItem j → AtDelim r → AtDelim s → x.text ++ r = j.text ++ s → x = j ∧ r = s

theorem flags_inj {a b c a' b' c' : Byte} {r s : List Byte}
    (h : (Item.scalar (.flags a b c)).text ++ r = (Item.scalar (.flags a' b' c')).text ++ s) :
    Item.scalar (.flags a b c) = Item.scalar (.flags a' b' c') ∧ r = s := by
  simp only [flags_text] at h
  have hl : ∀ x y z : Byte, (b!"0x" ++ hex2 x ++ hex2 y ++ hex2 z).length = 8 := fun _ _ _ => rfl
  obtain ⟨e1, e2⟩ := List.append_inj h (by rw [hl, hl])
  obtain ⟨e3, e4⟩ := List.append_inj' e1 rfl
  obtain ⟨e5, e6⟩ := List.append_inj' e3 rfl
  have e7 := List.append_cancel_left e5
  rw [hex2_inj _ _ e4, hex2_inj _ _ e6, hex2_inj _ _ e7]
  exact ⟨rfl, e2⟩

/-- All the values inside. -/
def FieldInj (x : Item) : Prop := ItemInj x ∧ ∀ l, x = .spaced l → ∀ y ∈ l, ItemInj y

theorem spaced_sep : ∃ c t, b!" " = c :: t ∧ isDelim c = true ∧ c ≠ 0x5d#8 := ⟨_, _, rfl, by decide, by decide⟩
theorem comma_sep : ∃ c t, b!", " = c :: t ∧ isDelim c = true ∧ c ≠ 0x5d#8 := ⟨_, _, rfl, by decide, by decide⟩

/-- One labelled value. -/
theorem field_inj (a b : Field) (fs gs : List Field) (ih : FieldInj a.2) (r s : List Byte) (ha : WfFields (a :: fs)) (hb : WfFields (b :: gs))
    (hr : AtDelim r) (hs : AtDelim s) (h : a.1 ++ b!"=" ++ a.2.text ++ r = b.1 ++ b!"=" ++ b.2.text ++ s) : a = b ∧ r = s := by
  obtain ⟨la, x⟩ := a
  obtain ⟨lb, y⟩ := b
  simp only [WfFields] at ha hb
  obtain ⟨⟨-, -, ⟨ha1, -⟩, ha2, ha3, wx⟩, -⟩ := ha
  obtain ⟨⟨-, -, ⟨hb1, -⟩, hb2, hb3, wy⟩, -⟩ := hb
  simp only [List.append_assoc, List.cons_append, List.nil_append] at h
  obtain ⟨el, h'⟩ := label_split ha1 hb1 h
  clear h
  subst el
  suffices x = y ∧ r = s by exact ⟨by rw [this.1], this.2⟩
  by_cases hf : la = b!"Flags"
  · have cx := ha2.1 hf
    have cy := hb2.1 hf
    cases x with
    | scalar u =>
      cases u with
      | flags a b c =>
        cases y with
        | scalar v =>
          cases v with
          | flags a' b' c' => exact flags_inj h'
          | _ => simp [isFlags] at cy
        | _ => simp [isFlags] at cy
      | _ => simp [isFlags] at cx
    | _ => simp [isFlags] at cx
  · by_cases hk : la = b!"KIDs"
    · have cx := ha3.1 hk
      have cy := hb3.1 hk
      cases x with
      | spaced l =>
        cases y with
        | spaced m =>
          simp only [WfRec] at wx wy
          simp only [Item.text, List.append_assoc, List.cons_append, List.nil_append, List.cons.injEq, true_and] at h'
          obtain ⟨e1, e2⟩ := list_inj b!" " spaced_sep l (ih.2 l rfl) m r s wx wy h'
          exact ⟨by rw [e1], e2⟩
        | _ => simp [isSpaced] at cy
      | _ => simp [isSpaced] at cx
    · have f : ∀ {p : Prop} {b : Bool}, (p ↔ b = true) → ¬ p → b = false := by
        intro p b e hp; cases b with | false => rfl | true => exact absurd (e.2 rfl) hp
      exact ih.1 y r s ⟨f ha2 hf, f ha3 hk, wx⟩ ⟨f hb2 hf, f hb3 hk, wy⟩ hr hs h'

theorem rest_inj (l : List Field) (ih : ∀ f ∈ l, FieldInj f.2) :
    ∀ m r s, WfFields l → WfFields m → AtEnd r → AtEnd s → rest l ++ r = rest m ++ s → l = m ∧ r = s := by
  induction l with
  | nil =>
    intro m r s _ _ hr hs h
    cases m with
    | nil => exact ⟨rfl, by simpa [rest] using h⟩
    | cons y m =>
      exfalso
      simp only [rest_nil, rest_cons, List.nil_append, List.cons_append] at h
      rcases hr with rfl | ⟨r', rfl⟩
      · simp at h
      · exact absurd (List.cons.inj h).1 (by decide)
  | cons x l IH =>
    intro m r s hl hm hr hs h
    cases m with
    | nil =>
      exfalso
      simp only [rest_nil, rest_cons, List.nil_append, List.cons_append] at h
      rcases hs with rfl | ⟨r', rfl⟩
      · simp at h
      · exact absurd (List.cons.inj h).1 (by decide)
    | cons y m =>
      have h' : x.1 ++ b!"=" ++ x.2.text ++ (rest l ++ r) = y.1 ++ b!"=" ++ y.2.text ++ (rest m ++ s) := by
        simp only [rest_cons, List.append_assoc, List.cons_append, List.nil_append, List.cons.injEq, true_and] at h ⊢
        exact h
      obtain ⟨e1, e2⟩ := field_inj x y l m (ih x (by simp)) _ _ hl hm (atDelim_rest l r hr) (atDelim_rest m s hs) h'
      obtain ⟨lx, vx⟩ := x
      obtain ⟨ly, vy⟩ := y
      simp only [WfFields] at hl hm
      obtain ⟨e3, e4⟩ := IH (fun z hz => ih z (by simp [hz])) m r s hl.2 hm.2 hr hs e2
      exact ⟨by rw [e1, e3], e4⟩

theorem label_head (label : List Byte) (h : label ≠ []) (h2 : label.head? ≠ some 0x7d#8) : ∃ c t, label = c :: t ∧ c ≠ 0x7d#8 := by
  cases label with
  | nil => exact absurd rfl h
  | cons c t => exact ⟨c, t, rfl, by simpa using h2⟩

theorem fields_inj (l : List Field) (ih : ∀ f ∈ l, FieldInj f.2) (m : List Field) (r s : List Byte) (hl : WfFields l) (hm : WfFields m)
    (hr : AtEnd r) (hs : AtEnd s)
    (h : List.intercalate b!" " (Item.fieldTexts l) ++ r = List.intercalate b!" " (Item.fieldTexts m) ++ s) : l = m ∧ r = s := by
  rw [record_unfold, record_unfold] at h
  cases l with
  | nil =>
    cases m with
    | nil => exact ⟨rfl, by simpa using h⟩
    | cons y m =>
      exfalso
      obtain ⟨ly, vy⟩ := y
      simp only [WfFields] at hm
      obtain ⟨c, t, rfl, hc⟩ := label_head ly hm.1.1 hm.1.2.1
      simp only [List.nil_append, List.cons_append] at h
      rcases hr with rfl | ⟨r', rfl⟩
      · simp at h
      · exact hc (List.cons.inj h).1.symm
  | cons x l =>
    cases m with
    | nil =>
      exfalso
      obtain ⟨ly, vy⟩ := x
      simp only [WfFields] at hl
      obtain ⟨c, t, rfl, hc⟩ := label_head ly hl.1.1 hl.1.2.1
      simp only [List.nil_append, List.cons_append] at h
      rcases hs with rfl | ⟨r', rfl⟩
      · simp at h
      · exact hc (List.cons.inj h).1
    | cons y m =>
      have h' : x.1 ++ b!"=" ++ x.2.text ++ (rest l ++ r) = y.1 ++ b!"=" ++ y.2.text ++ (rest m ++ s) := by
        simpa only [List.append_assoc] using h
      obtain ⟨e1, e2⟩ := field_inj x y l m (ih x (by simp)) _ _ hl hm (atDelim_rest l r hr) (atDelim_rest m s hs) h'
      obtain ⟨lx, vx⟩ := x
      obtain ⟨ly, vy⟩ := y
      simp only [WfFields] at hl hm
      obtain ⟨e3, e4⟩ := rest_inj l (fun z hz => ih z (by simp [hz])) m r s hl.2 hm.2 hr hs e2
      exact ⟨by rw [e1, e3], e4⟩

/-- The shape of a value. -/
def shapeOf : Item → Nat
  | .scalar _ => 0
  | .quoted _ => 1
  | .list _ => 2
  | .spaced _ => 2
  | .record _ => 3

theorem item_shape (j : Item) (h : WfItem j) (s : List Byte) (hs : AtDelim s) : shape (j.text ++ s) = shapeOf j := by
  cases j with
  | scalar u => simpa [Item.text, shapeOf] using scalar_shape u (wf_scalar h) s hs
  | quoted u => simp only [Item.text]; rfl
  | list l => simp only [Item.text]; rfl
  | spaced l => simp only [Item.text]; rfl
  | record l => simp only [Item.text]; rfl

theorem same_shape {x j : Item} {r s : List Byte} (hx : WfItem x) (hj : WfItem j) (hr : AtDelim r) (hs : AtDelim s)
    (h : x.text ++ r = j.text ++ s) : shapeOf x = shapeOf j := by
  rw [← item_shape x hx r hr, ← item_shape j hj s hs, h]

theorem inj_scalar (u : Scalar) : ItemInj (.scalar u) := by
  intro j r s hx hj hr hs h
  have h1 := same_shape hx hj hr hs h
  cases j with
  | scalar v =>
    simp only [Item.text] at h
    obtain ⟨e1, e2⟩ := tok_split (text_tok u (wf_scalar hx)) (text_tok v (wf_scalar hj)) hr hs h
    rw [scalar_inj u v (wf_scalar hx) (wf_scalar hj) e1]
    exact ⟨rfl, e2⟩
  | _ => exact absurd h1 (by simp [shapeOf])

theorem inj_quoted (u : List Byte) : ItemInj (.quoted u) := by
  intro j r s hx hj hr hs h
  have h1 := same_shape hx hj hr hs h
  cases j with
  | quoted v =>
    have hx := hx.2.2
    have hj := hj.2.2
    simp only [WfRec] at hx hj
    simp only [Item.text, List.append_assoc, List.cons_append, List.nil_append, List.cons.injEq, true_and] at h
    obtain ⟨e1, e2⟩ := quote_split hx hj h
    exact ⟨by rw [e1], e2⟩
  | _ => exact absurd h1 (by simp [shapeOf])

theorem inj_list (l : List Item) (ih : ∀ x ∈ l, ItemInj x) : ItemInj (.list l) := by
  intro j r s hx hj hr hs h
  have h1 := same_shape hx hj hr hs h
  cases j with
  | list m =>
    have hx := hx.2.2
    have hj := hj.2.2
    simp only [WfRec] at hx hj
    simp only [Item.text, List.append_assoc, List.cons_append, List.nil_append, List.cons.injEq, true_and] at h
    obtain ⟨e1, e2⟩ := list_inj b!", " comma_sep l ih m r s hx hj h
    exact ⟨by rw [e1], e2⟩
  | spaced m => exact absurd hj.2.1 (by simp [isSpaced])
  | _ => exact absurd h1 (by simp [shapeOf])

theorem inj_record (l : List Field) (ih : ∀ x ∈ l, FieldInj x.2) : ItemInj (.record l) := by
  intro j r s hx hj hr hs h
  have h1 := same_shape hx hj hr hs h
  cases j with
  | record m =>
    have hx := hx.2.2
    have hj := hj.2.2
    simp only [WfRec] at hx hj
    simp only [Item.text, List.append_assoc, List.cons_append, List.nil_append, List.cons.injEq, true_and] at h
    obtain ⟨e1, e2⟩ := fields_inj l ih m (0x7d#8 :: r) (0x7d#8 :: s) hx hj (.inr ⟨_, rfl⟩) (.inr ⟨_, rfl⟩) h
    exact ⟨by rw [e1], by simpa using e2⟩
  | _ => exact absurd h1 (by simp [shapeOf])

theorem fieldInj_of (x : Item) (h : ItemInj x) (h2 : ∀ l, x = .spaced l → ∀ y ∈ l, ItemInj y) : FieldInj x := ⟨h, h2⟩

mutual
theorem item_ok : ∀ x : Item, FieldInj x
  | .scalar u => ⟨inj_scalar u, by intro l e; cases e⟩
  | .quoted u => ⟨inj_quoted u, by intro l e; cases e⟩
  | .list l => ⟨inj_list l (fun x hx => (items_ok l x hx).1), by intro l e; cases e⟩
  | .spaced l => ⟨by intro j r s hx; exact absurd hx.2.1 (by simp [isSpaced]), by intro m e y hy; cases e; exact (items_ok l y hy).1⟩
  | .record l => ⟨inj_record l (fields_ok l), by intro l e; cases e⟩
theorem items_ok : ∀ l : List Item, ∀ x ∈ l, FieldInj x
  | [] => by simp
  | y :: l => by
    intro x hx
    rcases List.mem_cons.1 hx with e | hx
    · rw [e]; exact item_ok y
    · exact items_ok l x hx
theorem fields_ok : ∀ l : List (List Byte × Item), ∀ x ∈ l, FieldInj x.2
  | [] => by simp
  | (a, y) :: l => by
    intro x hx
    rcases List.mem_cons.1 hx with e | hx
    · rw [e]; exact item_ok y
    · exact fields_ok l x hx
end

/-- The notation determines the fields. -/
theorem render_inj (l m : List Field) (hl : WfFields l) (hm : WfFields m) (h : render l = render m) : l = m :=
  (fields_inj l (fields_ok l) m [] [] hl hm (.inl rfl) (.inl rfl) (by simpa [render] using h)).1

end DumpInj
end Mp4
