import Verif.Lemmas.DumpInj

/-! # The fields of every class can be read back -/

namespace Mp4
namespace DumpInj

open Spec DumpText Numerals

/-- No text in quotes contains a quote. -/
def QF (l : List (List Byte)) : Prop := ∀ s ∈ l, 0x22#8 ∉ s

theorem QF.left {a b : List (List Byte)} (h : QF (a ++ b)) : QF a := fun s hs => h s (by simp [hs])
theorem QF.right {a b : List (List Byte)} (h : QF (a ++ b)) : QF b := fun s hs => h s (by simp [hs])

/-- Well-formed but for quotes. -/
def Fine (fs : List Field) : Prop := QF (quotedTexts fs) → WfFields fs
/-- A value under a label. -/
def FineVal (x : Item) : Prop := isFlags x = false ∧ isSpaced x = false ∧ (QF x.quotes → WfRec x)
/-- An element of a list. -/
def FineElem (x : Item) : Prop := FineVal x ∧ x.text ≠ []

theorem FineElem.val {x : Item} (h : FineElem x) : FineVal x := h.1

/-- Labels of values other than flags and lists without commas. -/
def LabelOk (label : List Byte) : Prop :=
  label ≠ [] ∧ label.head? ≠ some 0x7d#8 ∧ (0x3d#8 ∉ label ∧ 0x0a#8 ∉ label) ∧ label ≠ b!"Flags" ∧ label ≠ b!"KIDs"

instance (label : List Byte) : Decidable (LabelOk label) := by unfold LabelOk; infer_instance

theorem fieldQuotes_append (a b : List Field) : Item.fieldQuotes (a ++ b) = Item.fieldQuotes a ++ Item.fieldQuotes b := by
  induction a with
  | nil => simp [Item.fieldQuotes]
  | cons x a ih => obtain ⟨l, x⟩ := x; simp [Item.fieldQuotes, ih]

theorem wfFields_append (a b : List Field) (ha : WfFields a) (hb : WfFields b) : WfFields (a ++ b) := by
  induction a with
  | nil => exact hb
  | cons x a ih =>
    obtain ⟨l, x⟩ := x
    simp only [List.cons_append, WfFields] at ha ⊢
    exact ⟨ha.1, ih ha.2⟩

theorem fine_nil : Fine [] := fun _ => trivial
theorem fine_append (a b : List Field) (ha : Fine a) (hb : Fine b) : Fine (a ++ b) := by
  intro h
  rw [quotedTexts, fieldQuotes_append] at h
  exact wfFields_append a b (ha h.left) (hb h.right)
theorem fine_cons (label : List Byte) (x : Item) (fs : List Field) (hl : LabelOk label) (hx : FineVal x) (hf : Fine fs) : Fine ((label, x) :: fs) := by
  intro h
  simp only [quotedTexts, Item.fieldQuotes] at h
  simp only [WfFields]
  obtain ⟨h1, h2, h3, h4, h5⟩ := hl
  refine ⟨⟨h1, h2, h3, ?_, ?_, hx.2.2 h.left⟩, hf h.right⟩
  · rw [hx.1]; simp only [Bool.false_eq_true, iff_false]; exact h4
  · rw [hx.2.1]; simp only [Bool.false_eq_true, iff_false]; exact h5
theorem fine_shownIf (c : Bool) (fs : List Field) (h : Fine fs) : Fine (shownIf c fs) := by
  unfold shownIf; split
  · exact h
  · exact fine_nil
theorem fine_ite (c : Prop) [Decidable c] (a b : List Field) (ha : Fine a) (hb : Fine b) : Fine (if c then a else b) := by
  split <;> assumption

theorem dec_head' (n : Nat) : dec n ≠ [] := dec_ne_nil n

theorem elem_scalar (s : Scalar) (h : Wf s) (hne : s.text ≠ []) : FineElem (.scalar s) := by
  refine ⟨⟨?_, rfl, fun _ => ?_⟩, by simpa [Item.text] using hne⟩
  · cases s <;> first | rfl | exact h.elim
  · simp only [WfRec]; exact .inr h

theorem elem_numI (n : Int) : FineElem (.scalar (.num n)) :=
  elem_scalar _ trivial (by simp [Scalar.text, dec_ne_nil])
theorem elem_hexI (n : Int) : FineElem (.scalar (.hex n)) :=
  elem_scalar _ trivial (by simp [Scalar.text, hexNat])
theorem elem_num {w : Nat} (v : BitVec w) : FineElem (num v) := elem_numI _
theorem elem_int {w : Nat} (v : BitVec w) : FineElem (int v) := elem_numI _
theorem elem_hex {w : Nat} (v : BitVec w) : FineElem (hex v) := elem_hexI _
theorem elem_hexInt {w : Nat} (v : BitVec w) : FineElem (hexInt v) := elem_hexI _
theorem elem_count {α : Type} (l : List α) : FineElem (count l) := elem_numI _
theorem elem_hexCount {α : Type} (l : List α) : FineElem (hexCount l) := elem_hexI _
theorem elem_bool (b : Bool) : FineElem (Spec.bool b) := elem_scalar _ trivial (by cases b <;> decide)
theorem elem_fraction (p : Nat) (n : Int) (d : Nat) : FineElem (fraction p n d) :=
  elem_scalar _ trivial (by simp [Scalar.text])
theorem elem_quoted' (s : List Byte) : FineElem (.quoted s) := by
  refine ⟨⟨rfl, rfl, fun h => ?_⟩, by simp [Item.text]⟩
  simp only [WfRec]
  exact h s (by simp [Item.quotes])
theorem elem_quoted (s : List Byte) : FineElem (quoted s) := elem_quoted' s
theorem elem_quoted4 (a : Arr4) : FineElem (quoted4 a) := elem_quoted' _
theorem elem_hexString (l : List Byte) : FineElem (hexString l) := elem_quoted' _

theorem val_word (w : List Byte) (h1 : ∀ c ∈ w, isDelim c = false) (h2 : ∀ c r, w = c :: r → isUpper c = true) : FineVal (word w) :=
  ⟨rfl, rfl, fun _ => by simp only [word, WfRec]; exact .inr ⟨h1, h2⟩⟩

theorem wfItems_of (l : List Item) (h : ∀ x ∈ l, FineElem x) (hq : QF (Item.quotesOf l)) : WfItems l := by
  induction l with
  | nil => trivial
  | cons x l ih =>
    simp only [Item.quotesOf] at hq
    simp only [WfItems]
    have hx := h x (by simp)
    exact ⟨⟨⟨hx.1.1, hx.1.2.1, hx.1.2.2 hq.left⟩, hx.2⟩, ih (fun y hy => h y (by simp [hy])) hq.right⟩

theorem elem_listOf {α : Type} (f : α → Item) (l : List α) (h : ∀ x, FineElem (f x)) : FineElem (listOf f l) := by
  refine ⟨⟨rfl, rfl, fun hq => ?_⟩, by simp [listOf, Item.text]⟩
  simp only [listOf, WfRec]
  simp only [listOf, Item.quotes] at hq
  exact wfItems_of _ (by intro x hx; simp only [List.mem_map] at hx; obtain ⟨a, -, rfl⟩ := hx; exact h a) hq

theorem elem_record (fs : List Field) (h : Fine fs) : FineElem (.record fs) := by
  refine ⟨⟨rfl, rfl, fun hq => ?_⟩, by simp [Item.text]⟩
  simp only [WfRec]
  simp only [Item.quotes] at hq
  exact h hq

theorem fine_vf (b : FullBox) : Fine (versionAndFlags b) := by
  intro _
  simp only [versionAndFlags, WfFields, WfRec, num, isFlags, isSpaced]
  exact ⟨by refine ⟨by decide, by decide, by decide, by decide, by decide, .inr trivial⟩,
    by refine ⟨by decide, by decide, by decide, by decide, by decide, .inl trivial⟩, trivial⟩

theorem fine_kids {α : Type} (f : α → Item) (l : List α) (h : ∀ x, FineElem (f x)) (fs : List Field) (hf : Fine fs) :
    Fine ((b!"KIDs", .spaced (l.map f)) :: fs) := by
  intro hq
  simp only [quotedTexts, Item.fieldQuotes, Item.quotes] at hq
  simp only [WfFields, WfRec, isFlags, isSpaced]
  exact ⟨⟨by decide, by decide, by decide, by decide, by decide,
    wfItems_of _ (by intro x hx; simp only [List.mem_map] at hx; obtain ⟨a, -, rfl⟩ := hx; exact h a) hq.left⟩, hf hq.right⟩

theorem elem_ite (c : Prop) [Decidable c] (a b : Item) (ha : FineElem a) (hb : FineElem b) : FineElem (if c then a else b) := by
  split <;> assumption

/-- Words that are letters, digits and underscores. -/
theorem word_ok (w : List Byte) (h : w.all (fun c => !isDelim c) = true) (h2 : w.head?.all isUpper = true) : FineVal (word w) := by
  apply val_word
  · intro c hc; simpa using List.all_eq_true.1 h c hc
  · rintro c r rfl; simpa using h2

theorem dataTypeName_fine (t : BitVec 32) : FineVal (word (dataTypeName t)) := by
  unfold dataTypeName
  repeat' split
  all_goals exact word_ok _ (by decide) (by decide)

macro "fine" : tactic => `(tactic| repeat' (first
  | with_reducible exact fine_nil | with_reducible exact fine_vf _ | with_reducible exact elem_num _ | with_reducible exact elem_int _ | with_reducible exact elem_hex _ | with_reducible exact elem_hexInt _ | with_reducible exact elem_count _ | with_reducible exact elem_hexCount _
  | with_reducible exact elem_bool _ | with_reducible exact elem_fraction _ _ _ | with_reducible exact elem_quoted _ | with_reducible exact elem_quoted4 _ | with_reducible exact elem_hexString _ | with_reducible exact elem_numI _
  | with_reducible exact dataTypeName_fine _
  | (with_reducible apply word_ok; decide; decide)
  | with_reducible apply elem_record | (with_reducible apply elem_listOf; intro _) | with_reducible apply elem_ite
  | with_reducible apply fine_shownIf | with_reducible apply fine_ite | (with_reducible apply fine_kids; intro _) | (with_reducible refine fine_cons _ _ _ ?_ ?_ ?_; decide) | with_reducible apply fine_append
  | with_reducible apply FineElem.val))

theorem elstEntry_fine (e : ElstEntry) : FineElem (elstEntry e) := by unfold elstEntry; fine
theorem sidxReference_fine (e : SidxReference) : FineElem (sidxReference e) := by unfold sidxReference; fine
theorem sttsEntry_fine (e : SttsEntry) : FineElem (sttsEntry e) := by unfold sttsEntry; fine
theorem cttsEntry_fine (e : CttsEntry) : FineElem (cttsEntry e) := by unfold cttsEntry; fine
theorem stscEntry_fine (e : StscEntry) : FineElem (stscEntry e) := by unfold stscEntry; fine
theorem sdtpSample_fine (e : SdtpSample) : FineElem (sdtpSample e) := by unfold sdtpSample; fine
theorem sbgpEntry_fine (e : SbgpEntry) : FineElem (sbgpEntry e) := by unfold sbgpEntry; fine
theorem tfraEntry_fine (e : TfraEntry) : FineElem (tfraEntry e) := by unfold tfraEntry; fine
theorem trunEntry_fine (fb : FullBox) (e : TrunEntry) : FineElem (trunEntry fb e) := by unfold trunEntry; fine
theorem parameterSet_fine (e : List Byte) : FineElem (parameterSet e) := by unfold parameterSet; fine
theorem brand_fine (e : Arr4) : FineElem (brand e) := by unfold brand; fine
theorem rollEntry_fine (e : RollDistance) : FineElem (rollEntry e) := by unfold rollEntry; fine
theorem startupOpt_fine (e : StartupOpt) : FineElem (startupOpt e) := by unfold startupOpt; fine
theorem descriptionLength_fine (c : Bool) (n : BitVec 32) : Fine (descriptionLength c n) := by unfold descriptionLength; fine
theorem startupEntry_fine (e : StartupEntry) : FineElem (startupEntry e) := by
  unfold startupEntry
  apply elem_record; apply fine_append
  · exact descriptionLength_fine _ _
  · fine; exact startupOpt_fine _
theorem rapEntry_fine (e : RapEntry) : FineElem (rapEntry e) := by
  unfold rapEntry
  apply elem_record; apply fine_append
  · exact descriptionLength_fine _ _
  · fine
theorem teleEntry_fine (e : TeleEntry) : FineElem (teleEntry e) := by
  unfold teleEntry
  apply elem_record; apply fine_append
  · exact descriptionLength_fine _ _
  · fine
theorem descriptor_fine (e : Descriptor) : FineElem (descriptor e) := by
  cases e <;> (simp only [descriptor]; fine)

theorem sgpdEntries_fine {α : Type} (own : Bool) (a b : List Byte) (ha : LabelOk a) (hb : LabelOk b) (f : α → Item) (l : List α)
    (h : ∀ x, FineElem (f x)) : Fine (sgpdEntries own a b f l) := by
  unfold sgpdEntries
  refine fine_cons _ _ _ (by decide) (elem_count _).val (fine_cons _ _ _ ?_ (elem_listOf f l h).val fine_nil)
  split <;> assumption

theorem fine_fields (type : BoxType) (d : BoxData) : Fine (fieldsOf type d) := by
  cases d with
  | emsg b =>
    simp only [fieldsOf]
    split <;> fine
  | opaq b => simp only [fieldsOf]; split <;> fine
  | sgpd b =>
    simp only [fieldsOf]
    refine fine_append _ _ (fine_append _ _ (by fine) (by split <;> fine)) ?_
    refine fine_ite _ _ _ (sgpdEntries_fine _ _ _ (by decide) (by decide) _ _ rollEntry_fine) ?_
    refine fine_ite _ _ _ (sgpdEntries_fine _ _ _ (by decide) (by decide) _ _ startupEntry_fine) ?_
    refine fine_ite _ _ _ (sgpdEntries_fine _ _ _ (by decide) (by decide) _ _ rapEntry_fine) ?_
    exact fine_ite _ _ _ (sgpdEntries_fine _ _ _ (by decide) (by decide) _ _ teleEntry_fine) fine_nil
  | _ =>
    simp only [fieldsOf]
    fine
    all_goals first
      | exact elstEntry_fine _ | exact sidxReference_fine _ | exact sttsEntry_fine _ | exact cttsEntry_fine _ | exact stscEntry_fine _ | exact sdtpSample_fine _
      | exact sbgpEntry_fine _ | exact tfraEntry_fine _ | exact trunEntry_fine _ _ | exact parameterSet_fine _ | exact brand_fine _ | exact descriptor_fine _

theorem wf_fields (type : BoxType) (d : BoxData) (h : QF (quotedTexts (fieldsOf type d))) : WfFields (fieldsOf type d) := fine_fields type d h

end DumpInj
end Mp4
