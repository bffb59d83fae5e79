import Verif.Spec.Dump
import Verif.Model.Dump

/-! # The texts of the classes are the rendered fields -/

namespace Mp4
namespace DumpText

set_option maxRecDepth 10000

open Spec

theorem joinSep_eq (sep : List Byte) (l : List (List Byte)) : joinSep sep l = List.intercalate sep l := by
  match l with
  | [] => rfl
  | [x] => simp [joinSep, List.intercalate]
  | x :: y :: r =>
    rw [joinSep, joinSep_eq sep (y :: r)]
    simp [List.intercalate, List.intersperse]

theorem texts_eq (l : List Item) : Item.texts l = l.map Item.text := by
  induction l with
  | nil => simp [Item.texts]
  | cons x l ih => simp [Item.texts, ih]

theorem fieldTexts_eq (l : List Field) : Item.fieldTexts l = l.map (fun f => f.1 ++ b!"=" ++ f.2.text) := by
  induction l with
  | nil => simp [Item.fieldTexts]
  | cons x l ih => obtain ⟨a, b⟩ := x; simp [Item.fieldTexts, ih]

/-- Further fields, each after a space. -/
def rest (l : List Field) : List Byte := l.flatMap (fun f => b!" " ++ f.1 ++ b!"=" ++ f.2.text)

theorem intercalate_cons (sep x : List Byte) (l : List (List Byte)) :
    List.intercalate sep (x :: l) = x ++ l.flatMap (fun y => sep ++ y) := by
  induction l generalizing x with
  | nil => simp [List.intercalate]
  | cons y l ih =>
    have := ih y
    simp only [List.intercalate] at this ⊢
    rw [List.intersperse_cons_cons, List.flatten_cons, List.flatten_cons, this]
    simp

theorem render_cons (f : Field) (l : List Field) : render (f :: l) = f.1 ++ b!"=" ++ f.2.text ++ rest l := by
  simp only [render, fieldTexts_eq, List.map_cons, intercalate_cons, rest, List.flatMap_map]
  simp

theorem rest_nil : rest [] = [] := rfl
theorem rest_cons (f : Field) (l : List Field) : rest (f :: l) = b!" " ++ f.1 ++ b!"=" ++ f.2.text ++ rest l := by simp [rest]
theorem rest_append (a b : List Field) : rest (a ++ b) = rest a ++ rest b := by simp [rest]
theorem rest_shownIf (c : Bool) (l : List Field) : rest (shownIf c l) = if c then rest l else [] := by
  unfold shownIf; split <;> rfl
theorem render_nil : render [] = [] := rfl

theorem record_text (l : List Field) : (Item.record l).text = b!"{" ++ render l ++ b!"}" := by simp [Item.text, render]

theorem list_text (l : List Item) : (Item.list l).text = b!"[" ++ List.intercalate b!", " (l.map Item.text) ++ b!"]" := by
  simp [Item.text, texts_eq]
theorem listOf_text {α : Type} (f : α → Item) (l : List α) :
    (listOf f l).text = b!"[" ++ List.intercalate b!", " (l.map (fun x => (f x).text)) ++ b!"]" := by
  simp [listOf, list_text, Function.comp_def]

theorem num_text {w : Nat} (v : BitVec w) : (num v).text = dec v.toNat := by simp [num, Item.text, Scalar.text, sign]
theorem int_text {w : Nat} (v : BitVec w) : (int v).text = sign (v.toInt < 0) ++ dec v.toInt.natAbs := by simp [int, Item.text, Scalar.text]
theorem hex_text {w : Nat} (v : BitVec w) : (hex v).text = hexNat v.toNat := by simp [hex, Item.text, Scalar.text, sign]
theorem hexInt_text {w : Nat} (v : BitVec w) : (hexInt v).text = sign (v.toInt < 0) ++ hexNat v.toInt.natAbs := by
  simp [hexInt, Item.text, Scalar.text]
theorem count_text {α : Type} (l : List α) : (count l).text = dec l.length := by simp [count, Item.text, Scalar.text, sign]
theorem hexCount_text {α : Type} (l : List α) : (hexCount l).text = hexNat l.length := by simp [hexCount, Item.text, Scalar.text, sign]
theorem bool_text (b : Bool) : (bool b).text = if b then b!"true" else b!"false" := by simp [Spec.bool, Item.text, Scalar.text]
theorem word_text (b : List Byte) : (word b).text = b := by simp [word, Item.text, Scalar.text]
theorem quoted_text (b : List Byte) : (quoted b).text = b!"\"" ++ b ++ b!"\"" := by simp [quoted, Item.text]
theorem quoted4_text (b : Arr4) : (quoted4 b).text = b!"\"" ++ b.str ++ b!"\"" := by simp [quoted4, Item.text, Arr4.str]
theorem fraction_text (p : Nat) (n : Int) (d : Nat) : (fraction p n d).text = fixedText p n d := by
  simp [fraction, Item.text, Scalar.text, fixedText]
theorem flags_text (a b c : Byte) : (Item.scalar (.flags a b c)).text = b!"0x" ++ hex2 a ++ hex2 b ++ hex2 c := by
  simp [Item.text, Scalar.text]

theorem joinU_plain {w : Nat} (l : List (BitVec w)) (sep : List Byte) :
    Arg.text .plain (joinU l sep) = List.intercalate sep (l.map (fun v => (num v).text)) := by
  simp [Arg.text, joinU, joinSep_eq, Function.comp_def, argU, Arg.scalar, num_text]
theorem joinU_hex {w : Nat} (l : List (BitVec w)) (sep : List Byte) :
    Arg.text .hex (joinU l sep) = List.intercalate sep (l.map (fun v => (hex v).text)) := by
  simp [Arg.text, joinU, joinSep_eq, Function.comp_def, argU, Arg.scalar, hex_text]
theorem joinI_plain {w : Nat} (l : List (BitVec w)) (sep : List Byte) :
    Arg.text .plain (joinI l sep) = List.intercalate sep (l.map (fun v => (int v).text)) := by
  simp [Arg.text, joinI, joinSep_eq, Function.comp_def, argI, Arg.scalar, int_text]
theorem joinI_hex {w : Nat} (l : List (BitVec w)) (sep : List Byte) :
    Arg.text .hex (joinI l sep) = List.intercalate sep (l.map (fun v => (hexInt v).text)) := by
  simp [Arg.text, joinI, joinSep_eq, Function.comp_def, argI, Arg.scalar, hexInt_text]
theorem joinMap_plain {α : Type} (f : α → List Byte) (l : List α) (sep : List Byte) :
    Arg.text .plain (joinMap f l sep) = List.intercalate sep (l.map f) := by
  simp [Arg.text, joinMap, joinSep_eq, Function.comp_def, Arg.scalar]
theorem intercalate_nil (l : List (List Byte)) : List.intercalate [] l = l.flatten := by
  induction l with
  | nil => rfl
  | cons x l ih => rw [intercalate_cons]; simp [List.flatMap]

theorem joinU_hex2 (l : List Byte) : Arg.text .hex2 (joinU l []) = l.flatMap hex2 := by
  simp [Arg.text, joinU, joinSep_eq, Function.comp_def, argU, Arg.scalar, intercalate_nil, List.flatMap]
theorem joinU_char3 (a b c : Byte) : Arg.text .char (joinU [a, b, c] []) = [a, b, c] := by
  simp [Arg.text, joinU, joinSep_eq, argU, Arg.scalar, intercalate_nil]

theorem argU_plain {w : Nat} (v : BitVec w) : Arg.text .plain (argU v) = dec v.toNat := rfl
theorem argI_plain {w : Nat} (v : BitVec w) : Arg.text .plain (argI v) = sign (v.toInt < 0) ++ dec v.toInt.natAbs := rfl
theorem argU_hex {w : Nat} (v : BitVec w) : Arg.text .hex (argU v) = hexNat v.toNat := rfl
theorem argU_hex2 (v : Byte) : Arg.text .hex2 (argU v) = hex2 v := by simp [Arg.text, argU, Arg.scalar]
theorem argU_char (v : Byte) : Arg.text .char (argU v) = [v] := by simp [Arg.text, argU, Arg.scalar]
theorem argSize_plain {α : Type} (l : List α) : Arg.text .plain (argSize l) = dec l.length := rfl
theorem argSize_hex {α : Type} (l : List α) : Arg.text .hex (argSize l) = hexNat l.length := rfl
theorem str_plain (s : List Byte) : Arg.text .plain (.str s) = s := rfl
theorem u_plain (n : Nat) : Arg.text .plain (.u n) = dec n := rfl
theorem bool_plain (b : Bool) : Arg.text .plain (.bool b) = if b then b!"true" else b!"false" := rfl
theorem ratio_fixed (p : Nat) (n : Int) (d : Nat) : Arg.text (.fixed p) (.ratio n d) = fixedText p n d := rfl

theorem format_nil (a : List Arg) : format [] a = [] := rfl
theorem format_lit (t : List Byte) (s : List Seg) (a : List Arg) : format (.lit t :: s) a = t ++ format s a := rfl
theorem format_field (p : Pres) (s : List Seg) (x : Arg) (a : List Arg) : format (.field p :: s) (x :: a) = x.text p ++ format s a := rfl

/-- Version and flags. -/
theorem vf_text (b : FullBox) : Arg.text .plain (argVF b) = render (versionAndFlags b) := by
  simp only [argVF, str_plain, FullBox.getVersionAndFlagsString, versionAndFlags, render_cons, rest_cons, rest_nil, format_nil, format_lit,
    format_field, argU_plain, argU_hex2, num_text, flags_text]
  simp

theorem render_vf_append (b : FullBox) (l : List Field) : render (versionAndFlags b ++ l) = render (versionAndFlags b) ++ rest l := by
  simp [versionAndFlags, render_cons, rest_cons, rest_nil]

macro "dump_text" "[" ts:Lean.Parser.Tactic.simpLemma,* "]" : tactic =>
  `(tactic| (simp only [render_cons, rest_cons, rest_nil, rest_append, rest_shownIf, render_vf_append, vf_text, format_nil, format_lit, format_field, record_text,
    listOf_text, num_text, int_text, hex_text, hexInt_text, count_text, hexCount_text, bool_text, word_text, quoted_text, quoted4_text, fraction_text,
    argU_plain, argI_plain, argU_hex, argU_hex2, argU_char, argSize_plain, argSize_hex, str_plain, u_plain, bool_plain, ratio_fixed,
    joinU_plain, joinU_hex, joinI_plain, joinI_hex, joinMap_plain, joinU_hex2, joinU_char3, List.append_assoc, List.cons_append, List.nil_append,
    List.append_nil, $ts,*]))

theorem elstEntry_text (e : ElstEntry) : e.toText = (elstEntry e).text := by dump_text [ElstEntry.toText, elstEntry, ElstEntry.getMediaRate]
theorem sidxReference_text (e : SidxReference) : e.toText = (sidxReference e).text := by dump_text [SidxReference.toText, sidxReference]
theorem sttsEntry_text (e : SttsEntry) : e.toText = (sttsEntry e).text := by dump_text [SttsEntry.toText, sttsEntry]
theorem cttsEntry_text (e : CttsEntry) : e.toText = (cttsEntry e).text := by dump_text [CttsEntry.toText, cttsEntry]
theorem stscEntry_text (e : StscEntry) : e.toText = (stscEntry e).text := by dump_text [StscEntry.toText, stscEntry]
theorem sdtpSample_text (e : SdtpSample) : e.toText = (sdtpSample e).text := by dump_text [SdtpSample.toText, sdtpSample]
theorem sbgpEntry_text (e : SbgpEntry) : e.toText = (sbgpEntry e).text := by dump_text [SbgpEntry.toText, sbgpEntry]
theorem tfraEntry_text (e : TfraEntry) : e.toText = (tfraEntry e).text := by dump_text [TfraEntry.toText, tfraEntry]
theorem parameterSet_text (e : List Byte) : avcParameterSetText e = (parameterSet e).text := by dump_text [avcParameterSetText, parameterSet]
theorem startupOpt_text (e : StartupOpt) : e.toText = (startupOpt e).text := by dump_text [StartupOpt.toText, startupOpt]
theorem startupOpt_fn : StartupOpt.toText = fun e => (startupOpt e).text := funext startupOpt_text

theorem brand_text (a : Arr4) : format fmt!"{{CompatibleBrand=\"{}\"}}" [.str a.str] = (brand a).text := by dump_text [brand]

theorem join_str (l : List (List Byte)) (sep : List Byte) : Arg.text .plain (.join (l.map .str) sep) = joinSep sep l := by
  simp [Arg.text, Arg.scalar, Function.comp_def]

theorem trunEntry_text (fb : FullBox) (e : TrunEntry) : e.toText fb = (trunEntry fb e).text := by
  simp only [TrunEntry.toText, trunEntry, record_text, shownIf]
  cases fb.checkFlag 0x100#32 <;> cases fb.checkFlag 0x200#32 <;> cases fb.checkFlag 0x400#32 <;> cases fb.checkFlag 0x800#32 <;>
    dump_text [if_true, if_false, Bool.false_eq_true, join_str, joinSep, render_nil]

theorem rollEntry_text (e : RollDistance) : e.toText = (rollEntry e).text := by
  simp only [RollDistance.toText, rollEntry]
  split <;> dump_text []

theorem startupEntry_text (e : StartupEntry) : e.toText = (startupEntry e).text := by
  simp only [StartupEntry.toText, startupEntry, entryHead, descriptionLength, shownIf, record_text]
  cases e.with_length <;> dump_text [if_true, if_false, Bool.false_eq_true, startupOpt_fn]

theorem rapEntry_text (e : RapEntry) : e.toText = (rapEntry e).text := by
  simp only [RapEntry.toText, rapEntry, entryHead, descriptionLength, shownIf, record_text]
  cases e.with_length <;> dump_text [if_true, if_false, Bool.false_eq_true]

theorem teleEntry_text (e : TeleEntry) : e.toText = (teleEntry e).text := by
  simp only [TeleEntry.toText, teleEntry, entryHead, descriptionLength, shownIf, record_text]
  cases e.with_length <;> dump_text [if_true, if_false, Bool.false_eq_true]

theorem descriptor_text (d : Descriptor) : d.toText = (descriptor d).text := by
  cases d with
  | es f subs =>
    simp only [Descriptor.toText, descriptor, record_text, shownIf]
    cases f.stream_dependence_flag <;> cases f.url_flag <;> cases f.ocr_stream_flag <;>
      dump_text [if_true, if_false, Bool.false_eq_true]
  | decConfig f subs =>
    dump_text [Descriptor.toText, descriptor]
    simp [Item.text, Scalar.text, sign]
  | decSpecific data => dump_text [Descriptor.toText, descriptor]
  | slConfig data => dump_text [Descriptor.toText, descriptor]

theorem dataTypeName_eq (t : BitVec 32) : data_type_to_string t = dataTypeName t := by
  simp only [data_type_to_string, dataTypeName]
  by_cases h : t.toNat ∈ [0, 1, 2, 3, 14, 21, 22, 23]
  · simp only [List.mem_cons, List.not_mem_nil, or_false] at h
    rcases h with h | h | h | h | h | h | h | h <;>
      (have e : t = BitVec.ofNat 32 t.toNat := by simp
       rw [h] at e; subst e; rfl)
  · simp only [List.mem_cons, List.not_mem_nil, or_false, not_or] at h
    obtain ⟨h0, h1, h2, h3, h4, h5, h6, h7⟩ := h
    have ne : ∀ n : Nat, n < 2 ^ 32 → t.toNat ≠ n → t ≠ BitVec.ofNat 32 n := by
      intro n hn hne e; apply hne; rw [e, BitVec.toNat_ofNat, Nat.mod_eq_of_lt hn]
    rw [if_neg (show ¬ t = 0 from ne 0 (by decide) h0), if_neg (show ¬ t = 1 from ne 1 (by decide) h1), if_neg (show ¬ t = 2 from ne 2 (by decide) h2), if_neg (show ¬ t = 3 from ne 3 (by decide) h3),
      if_neg (show ¬ t = 14 from ne 14 (by decide) h4), if_neg (show ¬ t = 21 from ne 21 (by decide) h5), if_neg (show ¬ t = 22 from ne 22 (by decide) h6), if_neg (show ¬ t = 23 from ne 23 (by decide) h7)]
    split <;> first | rfl | (exfalso; omega)

theorem printable_eq (s : List Byte) : (s.map fun c => if isprint c then c else 0x2e#8) = printable s := by
  simp only [printable]
  apply List.map_congr_left
  intro c _
  simp only [isprint, Bool.and_eq_true, decide_eq_true_eq, BitVec.le_def, BitVec.toNat_ofNat]

theorem kid_text (k : Vector Byte 16) : kidText k = (hexString k.toList).text := by
  simp only [kidText, hexString, Item.text, format_nil, format_lit, format_field, joinU_hex2]
  simp

theorem compressorName_eq (v : Vector Byte 32) :
    (v.toList.drop 1).take (if v[0].toNat > 31 then 31 else v[0].toNat) = compressorName v := by
  simp only [compressorName]
  congr 1
  split <;> omega

theorem hexString_text (l : List Byte) : (hexString l).text = b!"\"" ++ l.flatMap hex2 ++ b!"\"" := by simp [hexString, Item.text]

theorem spaced_text (l : List Item) : (Item.spaced l).text = b!"[" ++ List.intercalate b!" " (l.map Item.text) ++ b!"]" := by
  simp [Item.text, texts_eq]

theorem arr4_eq (a : Arr4) (x y z w : Byte) : a = ⟨x, y, z, w⟩ ↔ [a.b0, a.b1, a.b2, a.b3] = [x, y, z, w] := by
  obtain ⟨p, q, r, s⟩ := a
  simp

theorem rest_ite (c : Prop) [Decidable c] (a b : List Field) : rest (if c then a else b) = if c then rest a else rest b := by split <;> rfl

theorem elstEntry_fn : ElstEntry.toText = fun e => (elstEntry e).text := funext elstEntry_text
theorem sidxReference_fn : SidxReference.toText = fun e => (sidxReference e).text := funext sidxReference_text
theorem sttsEntry_fn : SttsEntry.toText = fun e => (sttsEntry e).text := funext sttsEntry_text
theorem cttsEntry_fn : CttsEntry.toText = fun e => (cttsEntry e).text := funext cttsEntry_text
theorem stscEntry_fn : StscEntry.toText = fun e => (stscEntry e).text := funext stscEntry_text
theorem sdtpSample_fn : SdtpSample.toText = fun e => (sdtpSample e).text := funext sdtpSample_text
theorem sbgpEntry_fn : SbgpEntry.toText = fun e => (sbgpEntry e).text := funext sbgpEntry_text
theorem tfraEntry_fn : TfraEntry.toText = fun e => (tfraEntry e).text := funext tfraEntry_text
theorem parameterSet_fn : avcParameterSetText = fun e => (parameterSet e).text := funext parameterSet_text
theorem rollEntry_fn : RollDistance.toText = fun e => (rollEntry e).text := funext rollEntry_text
theorem startupEntry_fn : StartupEntry.toText = fun e => (startupEntry e).text := funext startupEntry_text
theorem rapEntry_fn : RapEntry.toText = fun e => (rapEntry e).text := funext rapEntry_text
theorem teleEntry_fn : TeleEntry.toText = fun e => (teleEntry e).text := funext teleEntry_text
theorem descriptor_fn : Descriptor.toText = fun e => (descriptor e).text := funext descriptor_text
theorem trunEntry_fn (fb : FullBox) : TrunEntry.toText fb = fun e => (trunEntry fb e).text := funext (trunEntry_text fb)
theorem brand_fn : (fun a : Arr4 => format fmt!"{{CompatibleBrand=\"{}\"}}" [.str a.str]) = fun a => (brand a).text := funext brand_text
theorem kid_fn : kidText = fun k => (hexString k.toList).text := funext kid_text

theorem btrt_text (type : BoxType) (b : Btrt) : b.toStringOnlyData = render (fieldsOf type (.btrt b)) := by
  dump_text [Btrt.toStringOnlyData, fieldsOf]
theorem pasp_text (type : BoxType) (b : Pasp) : b.toStringOnlyData = render (fieldsOf type (.pasp b)) := by
  dump_text [Pasp.toStringOnlyData, fieldsOf]
theorem fiel_text (type : BoxType) (b : Fiel) : b.toStringOnlyData = render (fieldsOf type (.fiel b)) := by
  dump_text [Fiel.toStringOnlyData, fieldsOf]
theorem smhd_text (type : BoxType) (b : Smhd) : b.toStringOnlyData = render (fieldsOf type (.smhd b)) := by
  dump_text [Smhd.toStringOnlyData, fieldsOf, Smhd.getBalance]
theorem vmhd_text (type : BoxType) (b : Vmhd) : b.toStringOnlyData = render (fieldsOf type (.vmhd b)) := by
  dump_text [Vmhd.toStringOnlyData, fieldsOf]
theorem mfhd_text (type : BoxType) (b : Mfhd) : b.toStringOnlyData = render (fieldsOf type (.mfhd b)) := by
  dump_text [Mfhd.toStringOnlyData, fieldsOf]
theorem mfro_text (type : BoxType) (b : Mfro) : b.toStringOnlyData = render (fieldsOf type (.mfro b)) := by
  dump_text [Mfro.toStringOnlyData, fieldsOf]
theorem dref_text (type : BoxType) (b : Dref) : b.toStringOnlyData = render (fieldsOf type (.dref b)) := by
  dump_text [Dref.toStringOnlyData, fieldsOf]
theorem stsd_text (type : BoxType) (b : Stsd) : b.toStringOnlyData = render (fieldsOf type (.stsd b)) := by
  dump_text [Stsd.toStringOnlyData, fieldsOf]
theorem trex_text (type : BoxType) (b : Trex) : b.toStringOnlyData = render (fieldsOf type (.trex b)) := by
  dump_text [Trex.toStringOnlyData, fieldsOf]
theorem iods_text (type : BoxType) (b : Iods) : b.toStringOnlyData = render (fieldsOf type (.iods b)) := by
  dump_text [Iods.toStringOnlyData, fieldsOf]
theorem mehd_text (type : BoxType) (b : Mehd) : b.toStringOnlyData = render (fieldsOf type (.mehd b)) := by
  dump_text [Mehd.toStringOnlyData, fieldsOf]
theorem tfdt_text (type : BoxType) (b : Tfdt) : b.toStringOnlyData = render (fieldsOf type (.tfdt b)) := by
  dump_text [Tfdt.toStringOnlyData, fieldsOf]
theorem elst_text (type : BoxType) (b : Elst) : b.toStringOnlyData = render (fieldsOf type (.elst b)) := by
  dump_text [Elst.toStringOnlyData, fieldsOf, elstEntry_fn]
theorem sidx_text (type : BoxType) (b : Sidx) : b.toStringOnlyData = render (fieldsOf type (.sidx b)) := by
  dump_text [Sidx.toStringOnlyData, fieldsOf, sidxReference_fn]
theorem stts_text (type : BoxType) (b : Stts) : b.toStringOnlyData = render (fieldsOf type (.stts b)) := by
  dump_text [Stts.toStringOnlyData, fieldsOf, sttsEntry_fn]
theorem ctts_text (type : BoxType) (b : Ctts) : b.toStringOnlyData = render (fieldsOf type (.ctts b)) := by
  dump_text [Ctts.toStringOnlyData, fieldsOf, cttsEntry_fn]
theorem stsc_text (type : BoxType) (b : Stsc) : b.toStringOnlyData = render (fieldsOf type (.stsc b)) := by
  dump_text [Stsc.toStringOnlyData, fieldsOf, stscEntry_fn]
theorem stco_text (type : BoxType) (b : Stco) : b.toStringOnlyData = render (fieldsOf type (.stco b)) := by
  dump_text [Stco.toStringOnlyData, fieldsOf]
theorem co64_text (type : BoxType) (b : Co64) : b.toStringOnlyData = render (fieldsOf type (.co64 b)) := by
  dump_text [Co64.toStringOnlyData, fieldsOf]
theorem stss_text (type : BoxType) (b : Stss) : b.toStringOnlyData = render (fieldsOf type (.stss b)) := by
  dump_text [Stss.toStringOnlyData, fieldsOf]
theorem stsz_text (type : BoxType) (b : Stsz) : b.toStringOnlyData = render (fieldsOf type (.stsz b)) := by
  dump_text [Stsz.toStringOnlyData, fieldsOf]
theorem sdtp_text (type : BoxType) (b : Sdtp) : b.toStringOnlyData = render (fieldsOf type (.sdtp b)) := by
  dump_text [Sdtp.toStringOnlyData, fieldsOf, sdtpSample_fn]
theorem tfra_text (type : BoxType) (b : Tfra) : b.toStringOnlyData = render (fieldsOf type (.tfra b)) := by
  dump_text [Tfra.toStringOnlyData, fieldsOf, tfraEntry_fn]
theorem vpcC_text (type : BoxType) (b : VpcC) : b.toStringOnlyData = render (fieldsOf type (.vpcC b)) := by
  dump_text [VpcC.toStringOnlyData, fieldsOf]
theorem hdlr_text (type : BoxType) (b : Hdlr) : b.toStringOnlyData = render (fieldsOf type (.hdlr b)) := by
  dump_text [Hdlr.toStringOnlyData, fieldsOf]
theorem ftyp_text (type : BoxType) (b : Ftyp) : b.toStringOnlyData = render (fieldsOf type (.ftyp b)) := by
  rw [Ftyp.toStringOnlyData, brand_fn]
  dump_text [fieldsOf]
theorem esds_text (type : BoxType) (b : Esds) : b.toStringOnlyData = render (fieldsOf type (.esds b)) := by
  dump_text [Esds.toStringOnlyData, fieldsOf, descriptor_fn]
theorem sbgp_text (type : BoxType) (b : Sbgp) : b.toStringOnlyData = render (fieldsOf type (.sbgp b)) := by
  by_cases h : b.version = 0
  · dump_text [Sbgp.toStringOnlyData, fieldsOf, sbgpEntry_fn, h, ne_eq, not_true_eq_false, if_false, bne_self_eq_false, Bool.false_eq_true]
  · dump_text [Sbgp.toStringOnlyData, fieldsOf, sbgpEntry_fn, h, ne_eq, not_false_eq_true, if_true, bne_iff_ne]
theorem tfhd_text (type : BoxType) (b : Tfhd) : b.toStringOnlyData = render (fieldsOf type (.tfhd b)) := by
  simp only [Tfhd.toStringOnlyData, fieldsOf, shownIf]
  cases b.checkFlag 0x1#32 <;> cases b.checkFlag 0x2#32 <;> cases b.checkFlag 0x8#32 <;> cases b.checkFlag 0x10#32 <;> cases b.checkFlag 0x20#32 <;>
    dump_text [if_true, if_false, Bool.false_eq_true]
theorem trun_text (type : BoxType) (b : Trun) : b.toStringOnlyData = render (fieldsOf type (.trun b)) := by
  simp only [Trun.toStringOnlyData, fieldsOf, shownIf]
  cases b.checkFlag 0x1#32 <;> cases b.checkFlag 0x4#32 <;> dump_text [if_true, if_false, Bool.false_eq_true, trunEntry_fn]
theorem avcC_text (type : BoxType) (b : AvcC) : b.toStringOnlyData = render (fieldsOf type (.avcC b)) := by
  simp only [AvcC.toStringOnlyData, fieldsOf, shownIf]
  cases is_avc_high_profile b.profile && b.high_profile_fields_enabled <;> dump_text [if_true, if_false, Bool.false_eq_true, parameterSet_fn]
theorem av1C_text (type : BoxType) (b : Av1C) : b.toStringOnlyData = render (fieldsOf type (.av1C b)) := by
  simp only [Av1C.toStringOnlyData, fieldsOf, shownIf]
  cases b.initial_presentation_delay_present <;> dump_text [if_true, if_false, Bool.false_eq_true]
theorem dOps_text (type : BoxType) (b : DOps) : b.toStringOnlyData = render (fieldsOf type (.dOps b)) := by
  by_cases h : b.channel_mapping_family = 0
  · dump_text [DOps.toStringOnlyData, DOps.tableText, fieldsOf, h, if_true, bne_self_eq_false, Bool.false_eq_true, if_false]
  · dump_text [DOps.toStringOnlyData, DOps.tableText, fieldsOf, h, if_true, bne_iff_ne, ne_eq, not_false_eq_true, if_false]
theorem visual_text (type : BoxType) (b : VisualSampleEntry) : b.toStringOnlyData = render (fieldsOf type (.visual b)) := by
  dump_text [VisualSampleEntry.toStringOnlyData, fieldsOf, compressorName_eq]
theorem audio_text (type : BoxType) (b : AudioSampleEntry) : b.toStringOnlyData = render (fieldsOf type (.audio b)) := by
  simp only [AudioSampleEntry.toStringOnlyData, fieldsOf, shownIf]
  cases b.under_wave <;> cases b.is_quick_time_compatible <;>
    dump_text [if_true, if_false, Bool.false_eq_true, Bool.not_true, Bool.not_false, Bool.or_self, Bool.true_or, Bool.false_or, Bool.or_true, Bool.or_false]
theorem url_text (type : BoxType) (b : Url) : b.toStringOnlyData = render (fieldsOf type (.url b)) := by
  simp only [Url.toStringOnlyData, fieldsOf, shownIf, ← vf_text, argVF, str_plain]
  cases b.checkFlag 1#32 <;> dump_text [if_true, if_false, Bool.false_eq_true, Bool.not_true, Bool.not_false, ← vf_text, argVF]
theorem urn_text (type : BoxType) (b : Urn) : b.toStringOnlyData = render (fieldsOf type (.urn b)) := by
  simp only [Urn.toStringOnlyData, fieldsOf, shownIf]
  cases b.checkFlag 1#32 <;> dump_text [if_true, if_false, Bool.false_eq_true, Bool.not_true, Bool.not_false]
  simp [← vf_text, argVF, str_plain]
theorem emsg_text (type : BoxType) (b : Emsg) : b.toStringOnlyData = render (fieldsOf type (.emsg b)) := by
  by_cases h : b.version = 0
  · dump_text [Emsg.toStringOnlyData, fieldsOf, h, if_true]
  · dump_text [Emsg.toStringOnlyData, fieldsOf, h, if_false]
theorem data_text (type : BoxType) (b : Data) : b.toStringOnlyData = render (fieldsOf type (.data b)) := by
  by_cases h : b.data_type = 1
  · dump_text [Data.toStringOnlyData, fieldsOf, h, if_true, dataTypeName_eq, printable_eq]
  · dump_text [Data.toStringOnlyData, fieldsOf, h, if_false, dataTypeName_eq]
theorem colr_text (type : BoxType) (b : Colr) : b.toStringOnlyData = render (fieldsOf type (.colr b)) := by
  have e1 : b.colour_type = ⟨0x6e#8, 0x63#8, 0x6c#8, 0x78#8⟩ ↔
      [b.colour_type.b0, b.colour_type.b1, b.colour_type.b2, b.colour_type.b3] = b!"nclx" := arr4_eq _ _ _ _ _
  have e2 : b.colour_type = ⟨0x72#8, 0x49#8, 0x43#8, 0x43#8⟩ ↔
      [b.colour_type.b0, b.colour_type.b1, b.colour_type.b2, b.colour_type.b3] = b!"rICC" := arr4_eq _ _ _ _ _
  have e3 : b.colour_type = ⟨0x70#8, 0x72#8, 0x6f#8, 0x66#8⟩ ↔
      [b.colour_type.b0, b.colour_type.b1, b.colour_type.b2, b.colour_type.b3] = b!"prof" := arr4_eq _ _ _ _ _
  simp only [Colr.toStringOnlyData, fieldsOf, e1, e2, e3]
  split
  · dump_text [Arr4.str]
  · split <;> dump_text [Arr4.str]
theorem pssh_text (type : BoxType) (b : Pssh) : b.toStringOnlyData = render (fieldsOf type (.pssh b)) := by
  by_cases h : b.version = 0
  · dump_text [Pssh.toStringOnlyData, fieldsOf, hexString_text, h, ne_eq, not_true_eq_false, if_false, bne_self_eq_false, Bool.false_eq_true]
  · dump_text [Pssh.toStringOnlyData, fieldsOf, hexString_text, spaced_text, kid_fn, List.map_map, Function.comp_def, h, ne_eq, not_false_eq_true, if_true, bne_iff_ne]
theorem opaq_text (type : BoxType) (b : Opaque) : b.toStringOnlyData type = render (fieldsOf type (.opaq b)) := by
  simp only [Opaque.toStringOnlyData, fieldsOf]
  split <;> dump_text []
theorem sgpd_text (type : BoxType) (b : Sgpd) : b.toStringOnlyData = render (fieldsOf type (.sgpd b)) := by
  simp only [Sgpd.toStringOnlyData, fieldsOf]
  cases noDefaultLength b.version b.default_length <;> by_cases h : b.version = 1 <;>
    cases isRoll b.grouping_type <;> cases isAlst b.grouping_type <;> cases isRap b.grouping_type <;> cases isTele b.grouping_type <;>
    simp only [h, if_true, if_false, Bool.false_eq_true] <;>
    dump_text [sgpdEntries, rollEntry_fn, startupEntry_fn, rapEntry_fn, teleEntry_fn, if_true, if_false, Bool.false_eq_true]

end DumpText
end Mp4
