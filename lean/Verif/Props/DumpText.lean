import Verif.Lemmas.DumpWf
import Verif.Props.Calendar

/-!
# C66: the text of a box

What is shown of each class is listed in `Verif/Spec/Dump.lean` (`Spec.fieldsOf`), with the notation (`Spec.render`).
-/

namespace Mp4

open Spec DumpText DumpInj Numerals

theorem timeText_shown (t : BitVec 64) (h : ∃ s, timeText t = .ok s) : timeText t = .ok (shownTime t) := by
  obtain ⟨s, h⟩ := h
  simp [shownTime, h]

theorem timeText_not_shown (t : BitVec 64) (h : ¬ ∃ s, timeText t = .ok s) : ∃ m, timeText t = .error (.ub m) := by
  cases e : timeText t with
  | ok s => exact absurd ⟨s, e⟩ h
  | error x =>
    simp only [timeText] at e
    split at e
    · cases e
    · split at e
      · cases e
      · cases e; exact ⟨_, rfl⟩

/-- **C66 (text).** The text of a box of any class, whatever its members, consists of the fields listed for its class: each member that is shown, under its
label, in order.  The only exception is undefined behaviour when a time of a movie, track or media header is one of those that cannot be converted
(`C51_all_times`). -/
theorem C66_text (type : BoxType) (d : BoxData) :
    (timesShown d → d.toStringOnlyData type = .ok (render (fieldsOf type d))) ∧
    (¬ timesShown d → ∃ m, d.toStringOnlyData type = .error (.ub m)) := by
  have key : ∀ (b c : BitVec 64) (f : List Byte → List Byte → List Byte),
      (¬ ∀ t ∈ [b, c], ∃ s, timeText t = .ok s) →
      ∃ m, (do let x ← timeText b; let y ← timeText c; pure (f x y) : Except Err (List Byte)) = .error (.ub m) := by
    intro b c f h
    by_cases hb : ∃ s, timeText b = .ok s
    · have hc : ¬ ∃ s, timeText c = .ok s := by
        intro hc; apply h; intro t ht
        simp only [List.mem_cons, List.not_mem_nil, or_false] at ht
        rcases ht with rfl | rfl <;> assumption
      obtain ⟨s, hb⟩ := hb
      obtain ⟨m, hc⟩ := timeText_not_shown c hc
      exact ⟨m, by rw [hb, hc]; rfl⟩
    · obtain ⟨m, hb⟩ := timeText_not_shown b hb
      exact ⟨m, by rw [hb]; rfl⟩
  have triv : ∀ e : BoxData, times e = [] → ¬ timesShown e → False := by
    intro e he h; apply h; intro t ht; rw [he] at ht; simp at ht
  cases d with
  | mvhd b =>
    refine ⟨fun h => ?_, key _ _ _⟩
    simp only [BoxData.toStringOnlyData, Mvhd.toStringOnlyData, timeText_shown b.creation_time (h _ (by simp [times])),
      timeText_shown b.modification_time (h _ (by simp [times]))]
    refine congrArg Except.ok ?_
    dump_text [fieldsOf, Mvhd.getRate]
  | tkhd b =>
    refine ⟨fun h => ?_, key _ _ _⟩
    simp only [BoxData.toStringOnlyData, Tkhd.toStringOnlyData, timeText_shown b.creation_time (h _ (by simp [times])),
      timeText_shown b.modification_time (h _ (by simp [times]))]
    refine congrArg Except.ok ?_
    dump_text [fieldsOf, Tkhd.getWidth, Tkhd.getHeight]
  | mdhd b =>
    refine ⟨fun h => ?_, key _ _ _⟩
    simp only [BoxData.toStringOnlyData, Mdhd.toStringOnlyData, timeText_shown b.creation_time (h _ (by simp [times])),
      timeText_shown b.modification_time (h _ (by simp [times]))]
    refine congrArg Except.ok ?_
    dump_text [fieldsOf]
  | metaBox b =>
    refine ⟨fun _ => congrArg Except.ok ?_, fun h => (triv _ rfl h).elim⟩
    rw [fieldsOf, ← vf_text]; rfl
  | empty => exact ⟨fun _ => rfl, fun h => (triv _ rfl h).elim⟩
  | btrt b => exact ⟨fun _ => congrArg Except.ok (btrt_text type b), fun h => (triv _ rfl h).elim⟩
  | pasp b => exact ⟨fun _ => congrArg Except.ok (pasp_text type b), fun h => (triv _ rfl h).elim⟩
  | fiel b => exact ⟨fun _ => congrArg Except.ok (fiel_text type b), fun h => (triv _ rfl h).elim⟩
  | smhd b => exact ⟨fun _ => congrArg Except.ok (smhd_text type b), fun h => (triv _ rfl h).elim⟩
  | vmhd b => exact ⟨fun _ => congrArg Except.ok (vmhd_text type b), fun h => (triv _ rfl h).elim⟩
  | mfhd b => exact ⟨fun _ => congrArg Except.ok (mfhd_text type b), fun h => (triv _ rfl h).elim⟩
  | mfro b => exact ⟨fun _ => congrArg Except.ok (mfro_text type b), fun h => (triv _ rfl h).elim⟩
  | dref b => exact ⟨fun _ => congrArg Except.ok (dref_text type b), fun h => (triv _ rfl h).elim⟩
  | stsd b => exact ⟨fun _ => congrArg Except.ok (stsd_text type b), fun h => (triv _ rfl h).elim⟩
  | trex b => exact ⟨fun _ => congrArg Except.ok (trex_text type b), fun h => (triv _ rfl h).elim⟩
  | iods b => exact ⟨fun _ => congrArg Except.ok (iods_text type b), fun h => (triv _ rfl h).elim⟩
  | mehd b => exact ⟨fun _ => congrArg Except.ok (mehd_text type b), fun h => (triv _ rfl h).elim⟩
  | tfdt b => exact ⟨fun _ => congrArg Except.ok (tfdt_text type b), fun h => (triv _ rfl h).elim⟩
  | elst b => exact ⟨fun _ => congrArg Except.ok (elst_text type b), fun h => (triv _ rfl h).elim⟩
  | sidx b => exact ⟨fun _ => congrArg Except.ok (sidx_text type b), fun h => (triv _ rfl h).elim⟩
  | stts b => exact ⟨fun _ => congrArg Except.ok (stts_text type b), fun h => (triv _ rfl h).elim⟩
  | ctts b => exact ⟨fun _ => congrArg Except.ok (ctts_text type b), fun h => (triv _ rfl h).elim⟩
  | stsc b => exact ⟨fun _ => congrArg Except.ok (stsc_text type b), fun h => (triv _ rfl h).elim⟩
  | stco b => exact ⟨fun _ => congrArg Except.ok (stco_text type b), fun h => (triv _ rfl h).elim⟩
  | co64 b => exact ⟨fun _ => congrArg Except.ok (co64_text type b), fun h => (triv _ rfl h).elim⟩
  | stss b => exact ⟨fun _ => congrArg Except.ok (stss_text type b), fun h => (triv _ rfl h).elim⟩
  | stsz b => exact ⟨fun _ => congrArg Except.ok (stsz_text type b), fun h => (triv _ rfl h).elim⟩
  | sdtp b => exact ⟨fun _ => congrArg Except.ok (sdtp_text type b), fun h => (triv _ rfl h).elim⟩
  | sbgp b => exact ⟨fun _ => congrArg Except.ok (sbgp_text type b), fun h => (triv _ rfl h).elim⟩
  | tfhd b => exact ⟨fun _ => congrArg Except.ok (tfhd_text type b), fun h => (triv _ rfl h).elim⟩
  | tfra b => exact ⟨fun _ => congrArg Except.ok (tfra_text type b), fun h => (triv _ rfl h).elim⟩
  | trun b => exact ⟨fun _ => congrArg Except.ok (trun_text type b), fun h => (triv _ rfl h).elim⟩
  | avcC b => exact ⟨fun _ => congrArg Except.ok (avcC_text type b), fun h => (triv _ rfl h).elim⟩
  | av1C b => exact ⟨fun _ => congrArg Except.ok (av1C_text type b), fun h => (triv _ rfl h).elim⟩
  | vpcC b => exact ⟨fun _ => congrArg Except.ok (vpcC_text type b), fun h => (triv _ rfl h).elim⟩
  | dOps b => exact ⟨fun _ => congrArg Except.ok (dOps_text type b), fun h => (triv _ rfl h).elim⟩
  | visual b => exact ⟨fun _ => congrArg Except.ok (visual_text type b), fun h => (triv _ rfl h).elim⟩
  | audio b => exact ⟨fun _ => congrArg Except.ok (audio_text type b), fun h => (triv _ rfl h).elim⟩
  | hdlr b => exact ⟨fun _ => congrArg Except.ok (hdlr_text type b), fun h => (triv _ rfl h).elim⟩
  | url b => exact ⟨fun _ => congrArg Except.ok (url_text type b), fun h => (triv _ rfl h).elim⟩
  | urn b => exact ⟨fun _ => congrArg Except.ok (urn_text type b), fun h => (triv _ rfl h).elim⟩
  | emsg b => exact ⟨fun _ => congrArg Except.ok (emsg_text type b), fun h => (triv _ rfl h).elim⟩
  | data b => exact ⟨fun _ => congrArg Except.ok (data_text type b), fun h => (triv _ rfl h).elim⟩
  | colr b => exact ⟨fun _ => congrArg Except.ok (colr_text type b), fun h => (triv _ rfl h).elim⟩
  | pssh b => exact ⟨fun _ => congrArg Except.ok (pssh_text type b), fun h => (triv _ rfl h).elim⟩
  | ftyp b => exact ⟨fun _ => congrArg Except.ok (ftyp_text type b), fun h => (triv _ rfl h).elim⟩
  | opaq b => exact ⟨fun _ => congrArg Except.ok (opaq_text type b), fun h => (triv _ rfl h).elim⟩
  | esds b => exact ⟨fun _ => congrArg Except.ok (esds_text type b), fun h => (triv _ rfl h).elim⟩
  | sgpd b => exact ⟨fun _ => congrArg Except.ok (sgpd_text type b), fun h => (triv _ rfl h).elim⟩

/-- **C66 (numbers).** A decimal number is shown by its digits without leading zeros, a hexadecimal one by `0x` and its digits. -/
theorem C66_numerals (n : Nat) :
    (∃ l : List Nat, dec n = l.map hexDigit ∧ (∀ d ∈ l, d < 10) ∧ l ≠ [] ∧ l.foldl (fun v d => v * 10 + d) 0 = n ∧ (n ≠ 0 → l.head? ≠ some 0)) ∧
    (∃ l : List Nat, hexNat n = b!"0x" ++ l.map hexDigit ∧ (∀ d ∈ l, d < 16) ∧ l ≠ [] ∧ l.foldl (fun v d => v * 16 + d) 0 = n ∧
      (n ≠ 0 → l.head? ≠ some 0)) ∧
    ((List.range 16).map hexDigit = b!"0123456789abcdef") := by
  have a := digits_spec 10 (by decide) n
  have b := digits_spec 16 (by decide) n
  exact ⟨⟨digits 10 n, rfl, a.2.1, a.2.2.1, a.1, a.2.2.2⟩, ⟨digits 16 n, rfl, b.2.1, b.2.2.1, b.1, b.2.2.2⟩, by decide⟩

/-- **C66 (fractions).** A fixed-point number `num / den` is shown with its sign and rounded to the nearest decimal fraction of that many places: the error
is at most half a unit of the last place, and ties go to an even last digit. -/
theorem C66_fraction_nearest (places : Nat) (num : Int) (den : Nat) (h : 0 < den) :
    ∃ units : Nat, fraction places num den = .scalar (.fraction (num < 0) units places) ∧
      2 * (num.natAbs * 10 ^ places) ≤ 2 * (units * den) + den ∧ 2 * (units * den) ≤ 2 * (num.natAbs * 10 ^ places) + den ∧
      (2 * (num.natAbs * 10 ^ places % den) = den → units % 2 = 0) :=
  ⟨_, rfl, (roundEven_near _ _ h).1, (roundEven_near _ _ h).2, roundEven_tie _ _ h⟩

/-- **C66 (unambiguous).** As long as no text shown in quotes contains a quote, the text of a box determines all the fields shown: labels, numbers, texts,
lists and records. -/
theorem C66_unambiguous (t u : BoxType) (d e : BoxData) (s : List Byte)
    (hd : ∀ q ∈ quotedTexts (fieldsOf t d), 0x22#8 ∉ q) (he : ∀ q ∈ quotedTexts (fieldsOf u e), 0x22#8 ∉ q)
    (h1 : d.toStringOnlyData t = .ok s) (h2 : e.toStringOnlyData u = .ok s) : fieldsOf t d = fieldsOf u e := by
  have shown : ∀ (t : BoxType) (d : BoxData), d.toStringOnlyData t = .ok s → render (fieldsOf t d) = s := by
    intro t d h
    by_cases ht : timesShown d
    · have := (C66_text t d).1 ht
      rw [h] at this
      exact (Except.ok.inj this).symm
    · obtain ⟨m, hm⟩ := (C66_text t d).2 ht
      rw [h] at hm; cases hm
  exact render_inj _ _ (wf_fields t d hd) (wf_fields u e he) ((shown t d h1).trans (shown u e h2).symm)

/-- **C66 (the quotes).** Without that condition it does not: texts are not escaped, so two different boxes can have the same text. -/
theorem C66_quotes_not_escaped :
    let a : Urn := ⟨⟨0, 0, 0, 0⟩, b!"x\" Location=\"y", b!"z"⟩
    let b : Urn := ⟨⟨0, 0, 0, 0⟩, b!"x", b!"y\" Location=\"z"⟩
    a ≠ b ∧ a.toStringOnlyData = b.toStringOnlyData := by decide +kernel

/-- Numbers of a table are shown completely. -/
theorem num_inj {w : Nat} {a b : BitVec w} (h : num a = num b) : a = b := by
  simp only [num, Item.scalar.injEq, Scalar.num.injEq, Int.natCast_inj] at h
  exact BitVec.eq_of_toNat_eq h
theorem int_inj {w : Nat} {a b : BitVec w} (h : int a = int b) : a = b := by
  simp only [int, Item.scalar.injEq, Scalar.num.injEq] at h
  exact BitVec.eq_of_toInt_eq h
theorem hex_inj {w : Nat} {a b : BitVec w} (h : hex a = hex b) : a = b := by
  simp only [hex, Item.scalar.injEq, Scalar.hex.injEq, Int.natCast_inj] at h
  exact BitVec.eq_of_toNat_eq h
theorem listOf_inj {α : Type} (f : α → Item) (hf : ∀ a b, f a = f b → a = b) {l m : List α} (h : listOf f l = listOf f m) : l = m := by
  simp only [listOf, Item.list.injEq] at h
  exact List.map_inj_right hf |>.1 h

theorem sttsEntry_inj (a b : SttsEntry) (h : sttsEntry a = sttsEntry b) : a = b := by
  simp only [sttsEntry, Item.record.injEq, List.cons.injEq, Prod.mk.injEq, true_and, and_true] at h
  obtain ⟨a1, a2⟩ := a; obtain ⟨b1, b2⟩ := b
  simp only at h
  rw [num_inj h.1, num_inj h.2]
theorem cttsEntry_inj (a b : CttsEntry) (h : cttsEntry a = cttsEntry b) : a = b := by
  simp only [cttsEntry, Item.record.injEq, List.cons.injEq, Prod.mk.injEq, true_and, and_true] at h
  obtain ⟨a1, a2⟩ := a; obtain ⟨b1, b2⟩ := b
  simp only at h
  rw [num_inj h.1, int_inj h.2]
theorem stscEntry_inj (a b : StscEntry) (h : stscEntry a = stscEntry b) : a = b := by
  simp only [stscEntry, Item.record.injEq, List.cons.injEq, Prod.mk.injEq, true_and, and_true] at h
  obtain ⟨a1, a2, a3⟩ := a; obtain ⟨b1, b2, b3⟩ := b
  simp only at h
  rw [num_inj h.1, num_inj h.2.1, num_inj h.2.2]
theorem vf_inj {a b : FullBox} {l m : List Field} (h : versionAndFlags a ++ l = versionAndFlags b ++ m) : a = b ∧ l = m := by
  simp only [versionAndFlags, List.cons_append, List.nil_append, List.cons.injEq, Prod.mk.injEq, true_and, Item.scalar.injEq, Scalar.flags.injEq] at h
  obtain ⟨a1, a2, a3, a4⟩ := a; obtain ⟨b1, b2, b3, b4⟩ := b
  simp only at h
  obtain ⟨h1, ⟨h2, h3, h4⟩, h5⟩ := h
  rw [num_inj h1, h2, h3, h4]
  exact ⟨rfl, h5⟩

/-- **C66 (tables and data in full).** The tables of a track and the bytes of media data, free space and unsupported boxes are shown completely: the text
determines the box. -/
theorem C66_tables_in_full (t : BoxType) :
    (∀ a b : Stts, a.toStringOnlyData = b.toStringOnlyData → a = b) ∧
    (∀ a b : Ctts, a.toStringOnlyData = b.toStringOnlyData → a = b) ∧
    (∀ a b : Stsc, a.toStringOnlyData = b.toStringOnlyData → a = b) ∧
    (∀ a b : Stsz, a.toStringOnlyData = b.toStringOnlyData → a = b) ∧
    (∀ a b : Stss, a.toStringOnlyData = b.toStringOnlyData → a = b) ∧
    (∀ a b : Stco, a.toStringOnlyData = b.toStringOnlyData → a = b) ∧
    (∀ a b : Co64, a.toStringOnlyData = b.toStringOnlyData → a = b) ∧
    (∀ a b : Opaque, a.toStringOnlyData t = b.toStringOnlyData t → a = b) := by
  have qf : ∀ (t : BoxType) (d : BoxData), quotedTexts (fieldsOf t d) = [] → ∀ q ∈ quotedTexts (fieldsOf t d), 0x22#8 ∉ q := by
    intro t d h q hq; rw [h] at hq; simp at hq
  have noq : ∀ {α : Type} (f : α → Item) (l : List α), (∀ x, (f x).quotes = []) → Item.quotesOf (l.map f) = [] := by
    intro α f l h
    induction l with
    | nil => simp [Item.quotesOf]
    | cons x l ih => simp [Item.quotesOf, ih, h]
  have fq : ∀ (d e : BoxData), quotedTexts (fieldsOf t d) = [] → quotedTexts (fieldsOf t e) = [] → timesShown d → timesShown e →
      d.toStringOnlyData t = e.toStringOnlyData t → fieldsOf t d = fieldsOf t e := by
    intro d e hd he td te h
    have := (C66_text t e).1 te
    exact C66_unambiguous t t d e _ (qf t d hd) (qf t e he) (h.trans this) this
  have qvf : ∀ (b : FullBox) (l : List Field), Item.fieldQuotes (versionAndFlags b ++ l) = Item.fieldQuotes l := by
    intro b l; simp [versionAndFlags, Item.fieldQuotes, num, Item.quotes]
  have qc : ∀ {α : Type} (l : List α), (count l).quotes = [] := by intro α l; simp [count, Item.quotes]
  have qn : ∀ {w : Nat} (v : BitVec w), (num v).quotes = [] := by intro w v; simp [num, Item.quotes]
  have qi : ∀ {w : Nat} (v : BitVec w), (int v).quotes = [] := by intro w v; simp [int, Item.quotes]
  have qx : ∀ {w : Nat} (v : BitVec w), (hex v).quotes = [] := by intro w v; simp [hex, Item.quotes]
  have ql : ∀ {α : Type} (f : α → Item) (l : List α), (∀ x, (f x).quotes = []) → (listOf f l).quotes = [] := by
    intro α f l h; simp only [listOf, Item.quotes]; exact noq f l h
  refine ⟨?_, ?_, ?_, ?_, ?_, ?_, ?_, ?_⟩ <;> intro a b h
  · have q : ∀ a : Stts, quotedTexts (fieldsOf t (.stts a)) = [] := by
      intro a; simp only [quotedTexts, fieldsOf, qvf, Item.fieldQuotes, qc, List.nil_append, List.append_nil]
      exact ql _ _ (by intro x; simp [sttsEntry, Item.quotes, Item.fieldQuotes, qn])
    have e := fq (.stts a) (.stts b) (q a) (q b) (by intro x hx; cases hx) (by intro x hx; cases hx) (congrArg Except.ok h)
    obtain ⟨fa, la⟩ := a; obtain ⟨fb, lb⟩ := b
    simp only [fieldsOf] at e
    obtain ⟨e1, e2⟩ := vf_inj e
    simp only [List.cons.injEq, Prod.mk.injEq, true_and, and_true] at e2
    rw [e1, listOf_inj _ sttsEntry_inj e2.2]
  · have q : ∀ a : Ctts, quotedTexts (fieldsOf t (.ctts a)) = [] := by
      intro a; simp only [quotedTexts, fieldsOf, qvf, Item.fieldQuotes, qc, List.nil_append, List.append_nil]
      exact ql _ _ (by intro x; simp [cttsEntry, Item.quotes, Item.fieldQuotes, qn, qi])
    have e := fq (.ctts a) (.ctts b) (q a) (q b) (by intro x hx; cases hx) (by intro x hx; cases hx) (congrArg Except.ok h)
    obtain ⟨fa, la⟩ := a; obtain ⟨fb, lb⟩ := b
    simp only [fieldsOf] at e
    obtain ⟨e1, e2⟩ := vf_inj e
    simp only [List.cons.injEq, Prod.mk.injEq, true_and, and_true] at e2
    rw [e1, listOf_inj _ cttsEntry_inj e2.2]
  · have q : ∀ a : Stsc, quotedTexts (fieldsOf t (.stsc a)) = [] := by
      intro a; simp only [quotedTexts, fieldsOf, qvf, Item.fieldQuotes, qc, List.nil_append, List.append_nil]
      exact ql _ _ (by intro x; simp [stscEntry, Item.quotes, Item.fieldQuotes, qn])
    have e := fq (.stsc a) (.stsc b) (q a) (q b) (by intro x hx; cases hx) (by intro x hx; cases hx) (congrArg Except.ok h)
    obtain ⟨fa, la⟩ := a; obtain ⟨fb, lb⟩ := b
    simp only [fieldsOf] at e
    obtain ⟨e1, e2⟩ := vf_inj e
    simp only [List.cons.injEq, Prod.mk.injEq, true_and, and_true] at e2
    rw [e1, listOf_inj _ stscEntry_inj e2.2]
  · have q : ∀ a : Stsz, quotedTexts (fieldsOf t (.stsz a)) = [] := by
      intro a; simp only [quotedTexts, fieldsOf, qvf, Item.fieldQuotes, qc, qn, List.nil_append, List.append_nil]
      exact ql _ _ qn
    have e := fq (.stsz a) (.stsz b) (q a) (q b) (by intro x hx; cases hx) (by intro x hx; cases hx) (congrArg Except.ok h)
    obtain ⟨fa, sa, la⟩ := a; obtain ⟨fb, sb, lb⟩ := b
    simp only [fieldsOf] at e
    obtain ⟨e1, e2⟩ := vf_inj e
    simp only [List.cons.injEq, Prod.mk.injEq, true_and, and_true] at e2
    rw [e1, num_inj e2.1, listOf_inj _ (fun _ _ => num_inj) e2.2.2]
  · have q : ∀ a : Stss, quotedTexts (fieldsOf t (.stss a)) = [] := by
      intro a; simp only [quotedTexts, fieldsOf, qvf, Item.fieldQuotes, qc, qn, List.nil_append, List.append_nil]
      exact ql _ _ qn
    have e := fq (.stss a) (.stss b) (q a) (q b) (by intro x hx; cases hx) (by intro x hx; cases hx) (congrArg Except.ok h)
    obtain ⟨fa, la⟩ := a; obtain ⟨fb, lb⟩ := b
    simp only [fieldsOf] at e
    obtain ⟨e1, e2⟩ := vf_inj e
    simp only [List.cons.injEq, Prod.mk.injEq, true_and, and_true] at e2
    rw [e1, listOf_inj _ (fun _ _ => num_inj) e2.2]
  · have q : ∀ a : Stco, quotedTexts (fieldsOf t (.stco a)) = [] := by
      intro a; simp only [quotedTexts, fieldsOf, qvf, Item.fieldQuotes, qc, qn, List.nil_append, List.append_nil]
      exact ql _ _ qx
    have e := fq (.stco a) (.stco b) (q a) (q b) (by intro x hx; cases hx) (by intro x hx; cases hx) (congrArg Except.ok h)
    obtain ⟨fa, la⟩ := a; obtain ⟨fb, lb⟩ := b
    simp only [fieldsOf] at e
    obtain ⟨e1, e2⟩ := vf_inj e
    simp only [List.cons.injEq, Prod.mk.injEq, true_and, and_true] at e2
    rw [e1, listOf_inj _ (fun _ _ => hex_inj) e2.2]
  · have q : ∀ a : Co64, quotedTexts (fieldsOf t (.co64 a)) = [] := by
      intro a; simp only [quotedTexts, fieldsOf, qvf, Item.fieldQuotes, qc, qn, List.nil_append, List.append_nil]
      exact ql _ _ qx
    have e := fq (.co64 a) (.co64 b) (q a) (q b) (by intro x hx; cases hx) (by intro x hx; cases hx) (congrArg Except.ok h)
    obtain ⟨fa, la⟩ := a; obtain ⟨fb, lb⟩ := b
    simp only [fieldsOf] at e
    obtain ⟨e1, e2⟩ := vf_inj e
    simp only [List.cons.injEq, Prod.mk.injEq, true_and, and_true] at e2
    rw [e1, listOf_inj _ (fun _ _ => hex_inj) e2.2]
  · have q : ∀ a : Opaque, quotedTexts (fieldsOf t (.opaq a)) = [] := by
      intro a; simp only [quotedTexts, fieldsOf, Item.fieldQuotes, List.append_nil]
      exact ql _ _ qx
    have e := fq (.opaq a) (.opaq b) (q a) (q b) (by intro x hx; cases hx) (by intro x hx; cases hx) (congrArg Except.ok h)
    obtain ⟨la⟩ := a; obtain ⟨lb⟩ := b
    simp only [fieldsOf, List.cons.injEq, Prod.mk.injEq, true_and, and_true] at e
    rw [listOf_inj _ (fun _ _ => hex_inj) e]

/-- C66: a box of three sample entries, its fields and its text. -/
example : (BoxData.stss ⟨⟨0, 0, 0, 1⟩, [1, 31, 61]⟩).toStringOnlyData (fourcc "stss") =
    .ok b!"Version=0 Flags=0x000001 EntryCount=3 SampleNumbers=[1, 31, 61]" := by decide +kernel

/-- C66: fractions are rounded to even at ties (-0.005 is shown as -0.00 when its half is exact: 1/8 and 3/8 in two places). -/
example : (fraction 2 32 256).text = b!"0.12" ∧ (fraction 2 96 256).text = b!"0.38" ∧ (fraction 2 (-1) 256).text = b!"-0.00" := by
  refine ⟨by simp [fraction, Item.text]; decide +kernel, by simp [fraction, Item.text]; decide +kernel, by simp [fraction, Item.text]; decide +kernel⟩

end Mp4
