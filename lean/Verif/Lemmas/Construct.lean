import Verif.Spec.Construct
import Verif.Lemmas.Box

/-! # The content of constructed boxes: from fields to the layouts -/

namespace Mp4.Built
open Mp4

theorem fieldBits_eq (f : Field) : fieldBits f = natBits f.1 f.2 := by
  obtain ⟨w, v⟩ := f
  show (List.range w).map (fun i => v.testBit (w - 1 - i)) = natBits w v
  induction w with
  | zero => rfl
  | succ w ih =>
    rw [natBits, ← ih, List.range_succ_eq_map, List.map_cons, List.map_map]
    congr 1
    refine List.map_congr_left fun i hi => ?_
    have : i < w := List.mem_range.mp hi
    show v.testBit (w + 1 - 1 - (i + 1)) = _
    rw [show w + 1 - 1 - (i + 1) = w - 1 - i by omega]

theorem bitsOf_nil : bitsOf [] = [] := rfl
theorem bitsOf_cons (f : Field) (l : List Field) : bitsOf (f :: l) = natBits f.1 f.2 ++ bitsOf l := by
  rw [bitsOf, List.flatMap_cons, fieldBits_eq]; rfl
theorem bitsOf_append (a b : List Field) : bitsOf (a ++ b) = bitsOf a ++ bitsOf b := List.flatMap_append ..
theorem bitsOf_flatMap {α : Type} (g : α → List Field) (l : List α) :
    bitsOf (l.flatMap g) = l.flatMap fun a => bitsOf (g a) := List.flatMap_assoc ..
theorem bitsOf_map_u {w : Nat} (l : List (BitVec w)) : bitsOf (l.map u) = l.flatMap bits := by
  induction l with
  | nil => rfl
  | cons a l ih => rw [List.map_cons, bitsOf_cons, ih]; rfl
theorem bitsOf_bytes (l : List Byte) : bitsOf (bytes l) = l.flatMap bits := bitsOf_map_u l
theorem bitsOf_arr {w n : Nat} (v : Vector (BitVec w) n) : bitsOf (arr v) = vbits v := bitsOf_map_u _
theorem bitsOf_when (c : Prop) [Decidable c] (l : List Field) : bitsOf (when c l) = onlyIf (decide c) (bitsOf l) := by
  rw [when, onlyIf]; by_cases h : c <;> simp [h, bitsOf_nil]
theorem bitsOf_ite (c : Prop) [Decidable c] (a b : List Field) :
    bitsOf (if c then a else b) = if c then bitsOf a else bitsOf b := by split <;> rfl
theorem bitsOf_str (l : List Byte) : bitsOf (str l) = strBits l := by
  rw [str, bitsOf_append, bitsOf_bytes, strBits, bitsOf_cons, bitsOf_nil, List.append_nil]; rfl
theorem bitsOf_code (t : Arr4) : bitsOf (code t) = code4 t := by
  simp only [code, bitsOf_cons, bitsOf_nil, code4, bits, u, List.append_assoc, List.append_nil]
theorem natBits_bool (b : Bool) : natBits 1 b.toNat = bbit b := by cases b <;> rfl
theorem bitsOf_sn {w : Nat} (n : Nat) (v : BitVec w) : bitsOf (sn n v) = sbits n v := by
  rw [sn, bitsOf_cons, bitsOf_cons, bitsOf_nil, List.append_nil, natBits_bool]; rfl

theorem natBits_split (a b x : Nat) : natBits (a + b) x = natBits a (x / 2 ^ b) ++ natBits b x := by
  induction a with
  | zero => simp [natBits]
  | succ a ih =>
    rw [show a + 1 + b = (a + b) + 1 by omega, natBits, natBits, ih, List.cons_append, Nat.testBit_div_two_pow]

theorem bits_of_mod {x : Nat} (b : Byte) (h : b.toNat = x % 256) : bits b = natBits 8 x := by
  rw [bits, h, show (256 : Nat) = 2 ^ 8 from rfl, natBits_mod]

theorem bitsOf_full (v : Byte) (f : BitVec 32) : bitsOf (full v f) = fbits (FullBox.new v f) := by
  rw [full, bitsOf_cons, bitsOf_cons, bitsOf_nil, List.append_nil, fbits]
  simp only [FullBox.new, FullBox.setFlags, FullBox.setVersion]
  rw [List.append_assoc, List.append_assoc]
  congr 1
  rw [show (24 : Nat) = 8 + 16 from rfl, natBits_split 8 16, show (16 : Nat) = 8 + 8 from rfl, natBits_split 8 8]
  have k : ∀ n : Nat, (((f >>> n) &&& 0xff#32).setWidth 8).toNat = (f.toNat / 2 ^ n) % 256 := by
    intro n
    rw [BitVec.toNat_setWidth, BitVec.toNat_and, BitVec.toNat_ushiftRight, Nat.shiftRight_eq_div_pow]
    rw [show (255#32).toNat = 2 ^ 8 - 1 from rfl, Nat.and_two_pow_sub_one_eq_mod]
    omega
  rw [bits_of_mod _ (k 16), bits_of_mod _ (k 8)]
  have k0 := k 0
  rw [show f >>> 0 = f by simp, Nat.pow_zero, Nat.div_one] at k0
  rw [bits_of_mod _ k0]

theorem version_new (v : Byte) (f : BitVec 32) : (FullBox.new v f).version = v := rfl

theorem getFlags_new (v : Byte) (f : BitVec 32) : (FullBox.new v f).getFlags = f &&& 0xffffff#32 := by
  apply BitVec.eq_of_getLsbD_eq
  intro i hi
  simp only [FullBox.getFlags, FullBox.new, FullBox.setFlags, FullBox.setVersion, BitVec.getLsbD_or,
    BitVec.getLsbD_shiftLeft, BitVec.getLsbD_setWidth, BitVec.getLsbD_and, BitVec.getLsbD_ushiftRight]
  have h : ∀ (i : Fin 32) (a b c d : Bool),
      (((decide (i.val < 32) && !decide (i.val < 16)) && (decide (i.val - 16 < 32) && (decide (i.val - 16 < 8) &&
        (a && (255#32).getLsbD (i.val - 16))))) || ((decide (i.val < 32) && !decide (i.val < 8)) &&
        (decide (i.val - 8 < 32) && (decide (i.val - 8 < 8) && (b && (255#32).getLsbD (i.val - 8))))) ||
        (decide (i.val < 32) && (decide (i.val < 8) && (c && (255#32).getLsbD i.val)))) =
      ((if i.val < 8 then c else if i.val < 16 then b else a) && (0xffffff#32).getLsbD i.val) := by decide +kernel
  have h' := h ⟨i, hi⟩ (f.getLsbD (16 + (i - 16))) (f.getLsbD (8 + (i - 8))) (f.getLsbD i) true
  rw [h']
  congr 1
  show (if i < 8 then f.getLsbD i else if i < 16 then f.getLsbD (8 + (i - 8)) else f.getLsbD (16 + (i - 16))) = _
  split
  · rfl
  · split
    · rw [show 8 + (i - 8) = i by omega]
    · rw [show 16 + (i - 16) = i by omega]

theorem checkFlag_new (v : Byte) (f : BitVec 32) (n : Nat) (hn : n < 24) :
    (FullBox.new v f).checkFlag (1#32 <<< n) = f.getLsbD n := by
  rw [FullBox.checkFlag, getFlags_new]
  have key : f &&& 0xffffff#32 &&& (1#32 <<< n) = if f.getLsbD n then 1#32 <<< n else 0#32 := by
    apply BitVec.eq_of_getLsbD_eq
    intro i hi
    have h1 : (1#32 <<< n).getLsbD i = decide (i = n) := by
      rw [BitVec.getLsbD_shiftLeft]
      by_cases h : i = n
      · subst h; simp [hi]
      · have : i < n ∨ n < i := by omega
        rcases this with h2 | h2
        · simp [h2, h]
        · have : i - n ≠ 0 := by omega
          simp [BitVec.getLsbD_one, h, this]
    have h2 : ∀ i : Fin 32, i.val < 24 → (0xffffff#32).getLsbD i.val = true := by decide +kernel
    rw [BitVec.getLsbD_and, BitVec.getLsbD_and, h1]
    by_cases h : i = n
    · subst h
      rw [h2 ⟨i, hi⟩ hn]
      cases hf : f.getLsbD i <;> simp [h1]
    · cases hf : f.getLsbD n <;> simp [h1, h]
  rw [key]
  cases hf : f.getLsbD n
  · simp
  · have : ∀ n : Fin 24, (1#32 <<< n.val) ≠ 0#32 := by decide +kernel
    simpa using this ⟨n, hn⟩

theorem flag0 (v : Byte) (f : BitVec 32) : (FullBox.new v f).checkFlag 0x1#32 = f.getLsbD 0 :=
  checkFlag_new v f 0 (by omega)
theorem flag1 (v : Byte) (f : BitVec 32) : (FullBox.new v f).checkFlag 0x2#32 = f.getLsbD 1 :=
  checkFlag_new v f 1 (by omega)
theorem flag2 (v : Byte) (f : BitVec 32) : (FullBox.new v f).checkFlag 0x4#32 = f.getLsbD 2 :=
  checkFlag_new v f 2 (by omega)
theorem flag3 (v : Byte) (f : BitVec 32) : (FullBox.new v f).checkFlag 0x8#32 = f.getLsbD 3 :=
  checkFlag_new v f 3 (by omega)
theorem flag4 (v : Byte) (f : BitVec 32) : (FullBox.new v f).checkFlag 0x10#32 = f.getLsbD 4 :=
  checkFlag_new v f 4 (by omega)
theorem flag5 (v : Byte) (f : BitVec 32) : (FullBox.new v f).checkFlag 0x20#32 = f.getLsbD 5 :=
  checkFlag_new v f 5 (by omega)
theorem flag8 (v : Byte) (f : BitVec 32) : (FullBox.new v f).checkFlag 0x100#32 = f.getLsbD 8 :=
  checkFlag_new v f 8 (by omega)
theorem flag9 (v : Byte) (f : BitVec 32) : (FullBox.new v f).checkFlag 0x200#32 = f.getLsbD 9 :=
  checkFlag_new v f 9 (by omega)
theorem flag10 (v : Byte) (f : BitVec 32) : (FullBox.new v f).checkFlag 0x400#32 = f.getLsbD 10 :=
  checkFlag_new v f 10 (by omega)
theorem flag11 (v : Byte) (f : BitVec 32) : (FullBox.new v f).checkFlag 0x800#32 = f.getLsbD 11 :=
  checkFlag_new v f 11 (by omega)

theorem natBits_tm (v : Byte) (fb : FullBox) (hv : fb.version = v) (x : BitVec 64) :
    natBits (tm v x).1 (tm v x).2 = Layout.time fb x := by
  subst hv
  rw [tm, Layout.time]
  by_cases h : fb.version = 0#8
  · rw [if_pos h, if_pos h]; rfl
  · rw [if_neg h, if_neg h]; rfl
theorem bitsOf_stm (v : Byte) (fb : FullBox) (hv : fb.version = v) (x : BitVec 64) :
    bitsOf (stm v x) = Layout.stime fb x := by
  subst hv
  rw [stm, Layout.stime]
  by_cases h : fb.version = 0#8
  · rw [if_pos h, if_pos h, bitsOf_sn]
  · rw [if_neg h, if_neg h, bitsOf_cons, bitsOf_nil, List.append_nil]; rfl

theorem bitsOf_size4 (n : Nat) : bitsOf (size4 n) = lenBits (BitVec.ofNat 32 n) := by
  have k : ∀ m : Nat, m ≤ 21 → natBits 7 (n / 2 ^ m) = natBits 7 ((BitVec.ofNat 32 n).toNat / 2 ^ m) := by
    intro m hm
    rw [← natBits_mod 7 (n / 2 ^ m), ← natBits_mod 7 (_ / 2 ^ m), BitVec.toNat_ofNat]
    congr 1
    rw [← Nat.mod_mul_right_div_self (n % 2 ^ 32), ← Nat.mod_mul_right_div_self n, ← Nat.pow_add,
      Nat.mod_mod_of_dvd _ (Nat.pow_dvd_pow 2 (by omega))]
  have k0 := k 0 (by omega)
  rw [Nat.pow_zero, Nat.div_one, Nat.div_one] at k0
  simp only [size4, bitsOf_cons, bitsOf_nil, List.append_nil, lenBits, ← k 21 (by omega), ← k 14 (by omega),
    ← k 7 (by omega), ← k0, List.append_assoc]
  rfl

/-! ### entries -/

theorem tm_new (v : Byte) (f : BitVec 32) (x : BitVec 64) :
    natBits (tm v x).1 (tm v x).2 = Layout.time (FullBox.new v f) x := natBits_tm v _ rfl x

theorem flatMap_new {α β : Type} (new : α → β) (l : List α) (g : β → List Bool) :
    (l.map new).flatMap g = l.flatMap fun a => g (new a) := List.flatMap_map ..

theorem elstEntry_eq (v : Byte) (f : BitVec 32) (e : ElstEntryParameters) :
    bitsOf (elstEntry v e) = Layout.elstEntry (FullBox.new v f) (ElstEntry.new e) := by
  simp only [elstEntry, Layout.elstEntry, ElstEntry.new, bitsOf_append, bitsOf_cons, bitsOf_nil, tm_new v f,
    bitsOf_stm v (FullBox.new v f) rfl, u, bits, List.append_nil, List.append_assoc]
theorem sttsEntry_eq (e : SttsEntryParameters) : bitsOf (sttsEntry e) = Layout.sttsEntry (SttsEntry.new e) := by
  simp only [sttsEntry, Layout.sttsEntry, SttsEntry.new, bitsOf_cons, bitsOf_nil, u, bits, List.append_nil]
theorem cttsEntry_eq (e : BitVec 32 × BitVec 64) : bitsOf (cttsEntry e) = Layout.cttsEntry (CttsEntry.new e) := by
  simp only [cttsEntry, Layout.cttsEntry, CttsEntry.new, bitsOf_cons, bitsOf_sn, u, bits]
theorem stscEntry_eq (e : StscEntryParameters) : bitsOf (stscEntry e) = Layout.stscEntry (StscEntry.new e) := by
  simp only [stscEntry, Layout.stscEntry, StscEntry.new, bitsOf_cons, bitsOf_nil, u, bits, List.append_nil,
    List.append_assoc]
theorem sbgpEntry_eq (e : SbgpEntryParameters) : bitsOf (sbgpEntry e) = Layout.sbgpEntry (SbgpEntry.new e) := by
  simp only [sbgpEntry, Layout.sbgpEntry, SbgpEntry.new, bitsOf_cons, bitsOf_nil, u, bits, List.append_nil]
theorem sdtpSample_eq (e : StdpSampleParameters) : bitsOf (sdtpSample e) = Layout.sdtpSample (SdtpSample.new e) := by
  simp only [sdtpSample, Layout.sdtpSample, SdtpSample.new, bitsOf_cons, bitsOf_nil, un, ubits, List.append_nil,
    List.append_assoc]
theorem sidxReference_eq (e : SidxReferenceParameters) :
    bitsOf (sidxReference e) = Layout.sidxReference (SidxReference.new e) := by
  simp only [sidxReference, Layout.sidxReference, SidxReference.new, bitsOf_cons, bitsOf_nil, u, bits, un, ubits, b1,
    natBits_bool, List.append_nil, List.append_assoc]
theorem tfraEntry_eq (p : TfraParameters) (e : TfraEntryParameters) :
    bitsOf (tfraEntry p e) = Layout.tfraEntry (Tfra.new p) (TfraEntry.new e) := by
  simp only [tfraEntry, Layout.tfraEntry, TfraEntry.new, Tfra.new, bitsOf_cons, bitsOf_nil, tm_new p.version p.flags, un,
    ubits, Nat.mul_comm 8, List.append_nil, List.append_assoc]
theorem trunEntry_eq (v : Byte) (f : BitVec 32) (e : TrunEntryParameters) :
    bitsOf (trunEntry f e) = Layout.trunEntry (FullBox.new v f) (TrunEntry.new e) := by
  simp only [trunEntry, Layout.trunEntry, TrunEntry.new, bitsOf_append, bitsOf_when, bitsOf_cons, bitsOf_nil, bitsOf_sn, u,
    bits, List.append_nil, List.append_assoc, flag8, flag9, flag10, flag11, Bool.decide_eq_true]

theorem ownLength_eq (n : BitVec 32) : bitsOf (ownLength n) = onlyIf (decide (n > 0#32)) (bits n) := by
  rw [ownLength, bitsOf_when, bitsOf_cons, bitsOf_nil, List.append_nil]
  congr 1
  apply decide_eq_decide.mpr
  constructor
  · intro h
    show 0#32 < n
    rw [BitVec.lt_def]
    have : n.toNat ≠ 0 := fun h0 => h (BitVec.eq_of_toNat_eq h0)
    simp; omega
  · intro h h0
    subst h0
    exact absurd h (by decide)

theorem rollEntry_eq (e : RollDistanceParameters) :
    bitsOf (rollEntry e) = Layout.rollDistance (RollDistance.new e) := by
  simp only [rollEntry, Layout.rollDistance, RollDistance.new, bitsOf_append, ownLength_eq, bitsOf_cons, bitsOf_nil, u, bits,
    List.append_nil]
theorem alstEntry_eq (e : AlternativeStartupEntryParameters) :
    bitsOf (alstEntry e) = Layout.startupEntry (StartupEntry.new e) := by
  simp only [alstEntry, Layout.startupEntry, StartupEntry.new, bitsOf_append, ownLength_eq, bitsOf_cons, bitsOf_nil, u,
    bitsOf_map_u, bitsOf_flatMap, flatMap_new, Layout.startupOpt, StartupOpt.new, List.append_nil, List.append_assoc,
    bits]
theorem rapEntry_eq (e : VisualRandomAccessEntryParameters) : bitsOf (rapEntry e) = Layout.rapEntry (RapEntry.new e) := by
  simp only [rapEntry, Layout.rapEntry, RapEntry.new, bitsOf_append, ownLength_eq, bitsOf_cons, bitsOf_nil, b1,
    natBits_bool, un, ubits, List.append_nil, List.append_assoc]
theorem teleEntry_eq (e : TemporalLevelEntryParameters) : bitsOf (teleEntry e) = Layout.teleEntry (TeleEntry.new e) := by
  simp only [teleEntry, Layout.teleEntry, TeleEntry.new, bitsOf_append, ownLength_eq, bitsOf_cons, bitsOf_nil, b1,
    natBits_bool, zero, ubits, List.append_nil, List.append_assoc]
  rfl
theorem nal_eq (p : AVCParameterSetParameters) : bitsOf (nal p) = Layout.parameterSet (AVCParameterSet.new p) := by
  simp only [nal, Layout.parameterSet, AVCParameterSet.new, bitsOf_cons, bitsOf_bytes, count, cbits]

/-! ### descriptors -/

theorem ownBytes_es (p : ESDescriptorParameters) (subs : List DescriptorParameters) :
    ownBytes (.es p subs) = Layout.esOwnSize (ESFields.new p) := rfl

theorem newList_eq (l : List DescriptorParameters) : Descriptor.newList l = l.map Descriptor.new := by
  induction l with
  | nil => rfl
  | cons d l ih => rw [Descriptor.newList, ih]; rfl

theorem flatSize_new (d : DescriptorParameters) : Layout.flatSize (Descriptor.new d) = 5 + ownBytes d := by
  cases d <;> rfl

mutual
theorem declared_eq : (d : DescriptorParameters) → declared d = Layout.declaredSize (Descriptor.new d)
  | .es p subs => by
    rw [declared, Descriptor.new, Layout.declaredSize, ownBytes_es, below_eq subs]
    by_cases h : p.sub_descriptors_size = 0#32
    · simp [ESFields.new, h]
    · simp [ESFields.new, h]
  | .decConfig p subs => by
    rw [declared, Descriptor.new, Layout.declaredSize, newList_eq, List.map_map,
      show (Layout.flatSize ∘ Descriptor.new) = fun d => 5 + ownBytes d from funext flatSize_new]
    by_cases h : p.sub_descriptors_size = 0#32
    · simp [DecConfigFields.new, h]
    · simp [DecConfigFields.new, h]
  | .decSpecific _ => rfl
  | .slConfig _ => rfl
theorem below_eq : (l : List DescriptorParameters) → below l = Layout.nestedSize (Descriptor.newList l)
  | [] => rfl
  | d :: ds => by rw [below, Descriptor.newList, Layout.nestedSize, declared_eq d, below_eq ds]
end

theorem descriptor_eq (d : DescriptorParameters) : bitsOf (descriptor d) = Layout.descriptor (Descriptor.new d) := by
  have hd := declared_eq d
  cases d with
  | es p subs =>
    rw [descriptor, Descriptor.new, Layout.descriptor, hd, Descriptor.new]
    simp only [bitsOf_append, bitsOf_cons, bitsOf_nil, bitsOf_size4, bitsOf_sn, bitsOf_when, bitsOf_bytes, u, b1,
      natBits_bool, count, ESFields.new, List.append_nil, List.append_assoc, Bool.decide_eq_true, bits, cbits]
    rfl
  | decConfig p subs =>
    rw [descriptor, Descriptor.new, Layout.descriptor, hd, Descriptor.new]
    simp only [bitsOf_append, bitsOf_cons, bitsOf_nil, bitsOf_size4, bitsOf_sn, u, b1, un, ubits,
      natBits_bool, DecConfigFields.new, List.append_nil, List.append_assoc, bits]
    rfl
  | decSpecific p =>
    rw [descriptor, Descriptor.new, Layout.descriptor]
    simp only [bitsOf_append, bitsOf_cons, bitsOf_nil, bitsOf_size4, bitsOf_bytes, List.append_nil, List.append_assoc]
    rfl
  | slConfig p =>
    rw [descriptor, Descriptor.new, Layout.descriptor]
    simp only [bitsOf_append, bitsOf_cons, bitsOf_nil, bitsOf_size4, bitsOf_bytes, List.append_nil, List.append_assoc]
    rfl

/-! ### boxes -/

theorem full_zero : FullBox.zero = FullBox.new 0 0 := rfl
theorem opt_eq (c : Prop) [Decidable c] (l : List Bool) : (if c then l else []) = onlyIf (decide c) l := by
  rw [onlyIf]; by_cases h : c <;> simp [h]
theorem lang5 (c : Byte) (h : 0x60 ≤ c.toNat) : (c - 0x60#8).toNat = c.toNat - 0x60 := by
  have : c.toNat < 256 := c.isLt
  rw [BitVec.toNat_sub]; simp; omega

/-- The layout of the object is the list of fields. -/
syntax "built" "[" Lean.Parser.Tactic.simpLemma,* "]" : tactic
macro_rules
  | `(tactic| built [$ls,*]) => `(tactic| simp only [Layout.box, content, bitsOf_append, bitsOf_cons, bitsOf_nil, bitsOf_size4, bitsOf_sn, bitsOf_when, bitsOf_bytes, bitsOf_full, bitsOf_arr,
    bitsOf_code, bitsOf_str, bitsOf_map_u, bitsOf_flatMap, bitsOf_ite, flatMap_new, List.length_map, natBits_bool, u, un, b1, zero,
    count, bits, ubits, cbits, List.append_nil, List.append_assoc, Bool.decide_eq_true, flag0, flag1, flag2, flag3, flag4, flag5,
    FullBox.selfContained, sttsEntry_eq, cttsEntry_eq, stscEntry_eq, sbgpEntry_eq, sdtpSample_eq, sidxReference_eq,
    rollEntry_eq, alstEntry_eq, rapEntry_eq, teleEntry_eq, nal_eq, descriptor_eq, newList_eq, version_new, full_zero, opt_eq, 
    BitVec.ofNat_toNat, BitVec.setWidth_eq, Bool.decide_eq_false, BitVec.ofNat_eq_ofNat, $ls,*])

theorem btrt_eq (p : BtrtParameters) : Layout.btrt (Btrt.new p) = bitsOf (content (.btrt p)) := by
  built [Layout.btrt, Btrt.new]
theorem pasp_eq (p : PixelAspectRatioParameters) : Layout.pasp (Pasp.new p) = bitsOf (content (.pasp p)) := by
  built [Layout.pasp, Pasp.new]
theorem fiel_eq (p : FielParameters) : Layout.fiel (Fiel.new p) = bitsOf (content (.fiel p)) := by
  built [Layout.fiel, Fiel.new]
theorem smhd_eq (p : SmhdParameters) : Layout.smhd (Smhd.new p) = bitsOf (content (.smhd p)) := by
  built [Layout.smhd, Smhd.new]
  rfl
theorem vmhd_eq (p : VmhdParameters) : Layout.vmhd (Vmhd.new p) = bitsOf (content (.vmhd p)) := by
  built [Layout.vmhd, Vmhd.new]
theorem mfhd_eq (p : MfhdParameters) : Layout.mfhd (Mfhd.new p) = bitsOf (content (.mfhd p)) := by
  built [Layout.mfhd, Mfhd.new]
theorem mfro_eq (p : MfroParameters) : Layout.mfro (Mfro.new p) = bitsOf (content (.mfro p)) := by
  built [Layout.mfro, Mfro.new]
theorem dref_eq (p : DrefParameters) : Layout.dref (Dref.new p) = bitsOf (content (.dref p)) := by
  built [Layout.dref, Dref.new]
theorem stsd_eq (p : StsdParameters) : Layout.stsd (Stsd.new p) = bitsOf (content (.stsd p)) := by
  built [Layout.stsd, Stsd.new]
theorem trex_eq (p : TrexParameters) : Layout.trex (Trex.new p) = bitsOf (content (.trex p)) := by
  built [Layout.trex, Trex.new]
theorem iods_eq (p : IodsParameters) : Layout.iods (Iods.new p) = bitsOf (content (.iods p)) := by
  built [Layout.iods, Iods.new]
theorem mvhd_eq (p : MvhdParameters) : Layout.mvhd (Mvhd.new p) = bitsOf (content (.mvhd p)) := by
  built [Layout.mvhd, Mvhd.new, tm_new p.version p.flags]
  rfl
theorem tkhd_eq (p : TkhdParameters) : Layout.tkhd (Tkhd.new p) = bitsOf (content (.tkhd p)) := by
  built [Layout.tkhd, Tkhd.new, tm_new p.version p.flags]
  rfl
theorem mdhd_eq (p : MdhdParameters) (h : Letters (.mdhd p)) :
    Layout.mdhd (Mdhd.new p) = bitsOf (content (.mdhd p)) := by
  have h1 := h p.language.b0 (by simp)
  have h2 := h p.language.b1 (by simp)
  have h3 := h p.language.b2 (by simp)
  built [Layout.mdhd, Mdhd.new, tm_new p.version p.flags, Layout.language, lang, lang5 _ h1.1, lang5 _ h2.1, lang5 _ h3.1]
theorem mehd_eq (p : MehdParameters) : Layout.mehd (Mehd.new p) = bitsOf (content (.mehd p)) := by
  built [Layout.mehd, Mehd.new, tm_new p.version p.flags]
theorem tfdt_eq (p : TfdtParameters) : Layout.tfdt (Tfdt.new p) = bitsOf (content (.tfdt p)) := by
  built [Layout.tfdt, Tfdt.new, tm_new p.version p.flags]
theorem elst_eq (p : ElstParameters) : Layout.elst (Elst.new p) = bitsOf (content (.elst p)) := by
  built [Layout.elst, Elst.new, elstEntry_eq p.version p.flags]
theorem sidx_eq (p : SidxParameters) : Layout.sidx (Sidx.new p) = bitsOf (content (.sidx p)) := by
  built [Layout.sidx, Sidx.new, tm_new p.version p.flags]
  rfl
theorem stts_eq (p : SttsParameters) : Layout.stts (Stts.new p) = bitsOf (content (.stts p)) := by
  built [Layout.stts, Stts.new]
theorem ctts_eq (p : CttsParameters) : Layout.ctts (Ctts.new p) = bitsOf (content (.ctts p)) := by
  built [Layout.ctts, Ctts.new]
theorem stsc_eq (p : StscParameters) : Layout.stsc (Stsc.new p) = bitsOf (content (.stsc p)) := by
  built [Layout.stsc, Stsc.new]
theorem stco_eq (p : StcoParameters) : Layout.stco (Stco.new p) = bitsOf (content (.stco p)) := by
  built [Layout.stco, Stco.new]
theorem co64_eq (p : Co64Parameters) : Layout.co64 (Co64.new p) = bitsOf (content (.co64 p)) := by
  built [Layout.co64, Co64.new]
theorem stss_eq (p : StssParmeters) : Layout.stss (Stss.new p) = bitsOf (content (.stss p)) := by
  built [Layout.stss, Stss.new]
theorem stsz_eq (p : StszParameters) : Layout.stsz (Stsz.new p) = bitsOf (content (.stsz p)) := by
  rw [Layout.stsz, opt_eq]
  built [Stsz.new]
  rfl
theorem sdtp_eq (p : SdtpParameters) : Layout.sdtp (Sdtp.new p) = bitsOf (content (.sdtp p)) := by
  built [Layout.sdtp, Sdtp.new]
theorem sbgp_eq (p : SbgpParameters) : Layout.sbgp (Sbgp.new p) = bitsOf (content (.sbgp p)) := by
  built [Layout.sbgp, Sbgp.new]
  rfl
theorem tfhd_eq (p : TfhdParameters) : Layout.tfhd (Tfhd.new p) = bitsOf (content (.tfhd p)) := by
  built [Layout.tfhd, Tfhd.new]
theorem tfra_eq (p : TfraParameters) : Layout.tfra (Tfra.new p) = bitsOf (content (.tfra p)) := by
  have k : (fun a => Layout.tfraEntry (Tfra.new p) (TfraEntry.new a)) = fun a => bitsOf (tfraEntry p a) :=
    funext fun a => (tfraEntry_eq p a).symm
  rw [Layout.tfra, show (Tfra.new p).entries = p.entries.map TfraEntry.new from rfl, flatMap_new, k]
  built [Tfra.new]
  rfl
theorem trun_eq (p : TrunParameters) : Layout.trun (Trun.new p) = bitsOf (content (.trun p)) := by
  built [Layout.trun, Trun.new, trunEntry_eq p.version p.flags]
theorem avcC_eq (p : AVCDecoderConfigurationParameters) : Layout.avcC (AvcC.new p) = bitsOf (content (.avcC p)) := by
  built [Layout.avcC, AvcC.new, Layout.avcCHigh]
  rfl
theorem av1C_eq (p : AV1CodecConfigurationParameters) : Layout.av1C (Av1C.new p) = bitsOf (content (.av1C p)) := by
  built [Layout.av1C, Av1C.new]
  rfl
theorem vpcC_eq (p : VPCodecConfigurationParameters) : Layout.vpcC (VpcC.new p) = bitsOf (content (.vpcC p)) := by
  built [Layout.vpcC, VpcC.new]
  rfl
theorem dOps_eq (p : DOpsParameters) : Layout.dOps (DOps.new p) = bitsOf (content (.dOps p)) := by
  built [Layout.dOps, DOps.new]
  rfl
theorem visualSampleEntry_eq (p : VisualSampleEntryParameters) : Layout.visualSampleEntry (VisualSampleEntry.new p) = bitsOf (content (.visual p)) := by
  built [Layout.visualSampleEntry, VisualSampleEntry.new]
  rfl
theorem hdlr_eq (p : HdlrParameters) : Layout.hdlr (Hdlr.new p) = bitsOf (content (.hdlr p)) := by
  built [Layout.hdlr, Hdlr.new]
  rfl
theorem url_eq (p : UrlParameters) : Layout.url (Url.new p) = bitsOf (content (.url p)) := by
  built [Layout.url, Url.new]
theorem urn_eq (p : UrnParameters) : Layout.urn (Urn.new p) = bitsOf (content (.urn p)) := by
  built [Layout.urn, Urn.new]
theorem emsg_eq (p : EmsgParameters) : Layout.emsg (Emsg.new p) = bitsOf (content (.emsg p)) := by
  built [Layout.emsg, Emsg.new]
theorem data_eq (p : DataParameters) : Layout.data (Data.new p) = bitsOf (content (.data p)) := by
  built [Layout.data, Data.new]
theorem colr_eq (p : ColrParameters) : Layout.colr (Colr.new p) = bitsOf (content (.colr p)) := by
  have e1 : Colr.isNclx p.colour_type = decide (p.colour_type = fourcc "nclx") := by
    rw [show fourcc "nclx" = ⟨0x6e#8, 0x63#8, 0x6c#8, 0x78#8⟩ by decide +kernel]; rfl
  have e2 : Colr.isProfile p.colour_type = decide (p.colour_type = fourcc "rICC" ∨ p.colour_type = fourcc "prof") := by
    rw [show fourcc "rICC" = ⟨0x72#8, 0x49#8, 0x43#8, 0x43#8⟩ by decide +kernel,
      show fourcc "prof" = ⟨0x70#8, 0x72#8, 0x6f#8, 0x66#8⟩ by decide +kernel, Bool.decide_or]; rfl
  rw [Layout.colr]
  by_cases h1 : p.colour_type = fourcc "nclx"
  · rw [show Colr.isNclx (Colr.new p).colour_type = true by rw [show (Colr.new p).colour_type = p.colour_type from rfl, e1]; simp [h1],
      if_pos rfl]
    built [Colr.new, if_pos h1]
    rfl
  · rw [show Colr.isNclx (Colr.new p).colour_type = false by rw [show (Colr.new p).colour_type = p.colour_type from rfl, e1]; simp [h1],
      if_neg (by simp)]
    by_cases h2 : p.colour_type = fourcc "rICC" ∨ p.colour_type = fourcc "prof"
    · rw [show Colr.isProfile (Colr.new p).colour_type = true by
        rw [show (Colr.new p).colour_type = p.colour_type from rfl, e2]; simp [h2], if_pos rfl]
      built [Colr.new, if_neg h1, if_pos h2]
    · rw [show Colr.isProfile (Colr.new p).colour_type = false by
        rw [show (Colr.new p).colour_type = p.colour_type from rfl, e2]; simp [h2], if_neg (by simp)]
      built [Colr.new, if_neg h1, if_neg h2]
theorem pssh_eq (p : PsshParameters) : Layout.pssh (Pssh.new p) = bitsOf (content (.pssh p)) := by
  built [Layout.pssh, Pssh.new]
  rfl
theorem esds_eq (p : EsdsParameters) : Layout.esds (Esds.new p) = bitsOf (content (.esds p)) := by
  built [Layout.esds, Esds.new]
theorem sgpd_eq (p : SgpdParameters) : Layout.sgpd (Sgpd.new p) = bitsOf (content (.sgpd p)) := by
  have e1 : isRoll p.grouping_type = decide (p.grouping_type = fourcc "roll" ∨ p.grouping_type = fourcc "prol") := by
    rw [show fourcc "roll" = ⟨0x72#8, 0x6f#8, 0x6c#8, 0x6c#8⟩ by decide +kernel,
      show fourcc "prol" = ⟨0x70#8, 0x72#8, 0x6f#8, 0x6c#8⟩ by decide +kernel, Bool.decide_or]; rfl
  have e2 : isAlst p.grouping_type = decide (p.grouping_type = fourcc "alst") := by
    rw [show fourcc "alst" = ⟨0x61#8, 0x6c#8, 0x73#8, 0x74#8⟩ by decide +kernel]; rfl
  have e3 : isRap p.grouping_type = decide (p.grouping_type = fourcc "rap ") := by
    rw [show fourcc "rap " = ⟨0x72#8, 0x61#8, 0x70#8, 0x20#8⟩ by decide +kernel]; rfl
  have e4 : isTele p.grouping_type = decide (p.grouping_type = fourcc "tele") := by
    rw [show fourcc "tele" = ⟨0x74#8, 0x65#8, 0x6c#8, 0x65#8⟩ by decide +kernel]; rfl
  rw [Layout.sgpd, show (Sgpd.new p).grouping_type = p.grouping_type from rfl]
  simp only [e1, e2, e3, e4, decide_eq_true_eq]
  built [Sgpd.new]
  rfl

theorem audio_new (p : AudioSampleEntryParameters) (b : AudioSampleEntry) (h : AudioSampleEntry.new p = .ok b) :
    b = AudioSampleEntry.init p := by
  rw [AudioSampleEntry.new] at h
  split at h
  · exact (Except.ok.inj h).symm
  · cases h

theorem audio_eq (p : AudioSampleEntryParameters) :
    Layout.audioSampleEntry (AudioSampleEntry.init p) = bitsOf (content (.audio p)) := by
  built [Layout.audioSampleEntry, AudioSampleEntry.init]
  rfl

theorem audio_run (p : AudioSampleEntryParameters) (b : Box) (h : (Construction.audio p).run = .ok b) :
    b = ⟨p.type, .audio (AudioSampleEntry.init p), none⟩ := by
  rw [Construction.run] at h
  cases hn : AudioSampleEntry.new p with
  | error e => rw [hn] at h; cases h
  | ok a =>
    rw [hn] at h
    have := audio_new p a hn
    subst this
    exact (Except.ok.inj h).symm

theorem ftyp_eq (p : FtypParameters) : Layout.ftyp (Ftyp.new p) = bitsOf (content (.ftyp p)) := by
  built [Layout.ftyp, Ftyp.new]
theorem styp_eq (p : StypParameters) : Layout.ftyp (Styp.new p) = bitsOf (content (.styp p)) := by
  built [Layout.ftyp, Styp.new]

/-- The layout of the constructed object is the list of fields of the specification. -/
theorem layout_eq (c : Construction) (b : Box) (h : c.run = .ok b) (hl : Letters c) :
    Layout.box b.data = bitsOf (content c) := by
  cases c with
  | audio p => rw [audio_run p b h]; exact audio_eq p
  | mdhd p => cases h; exact mdhd_eq p hl
  | urlSelf => cases h; decide +kernel
  | urnSelf => cases h; decide +kernel
  | metaBox => cases h; decide +kernel
  | free p => cases h; exact (bitsOf_bytes _).symm
  | skip p => cases h; exact (bitsOf_bytes _).symm
  | mdat p => cases h; exact (bitsOf_bytes _).symm
  | unsupported p => cases h; exact (bitsOf_bytes _).symm
  | btrt p => cases h; exact btrt_eq p
  | pasp p => cases h; exact pasp_eq p
  | fiel p => cases h; exact fiel_eq p
  | smhd p => cases h; exact smhd_eq p
  | vmhd p => cases h; exact vmhd_eq p
  | mfhd p => cases h; exact mfhd_eq p
  | mfro p => cases h; exact mfro_eq p
  | dref p => cases h; exact dref_eq p
  | stsd p => cases h; exact stsd_eq p
  | trex p => cases h; exact trex_eq p
  | iods p => cases h; exact iods_eq p
  | mvhd p => cases h; exact mvhd_eq p
  | tkhd p => cases h; exact tkhd_eq p
  | mehd p => cases h; exact mehd_eq p
  | tfdt p => cases h; exact tfdt_eq p
  | elst p => cases h; exact elst_eq p
  | sidx p => cases h; exact sidx_eq p
  | stts p => cases h; exact stts_eq p
  | ctts p => cases h; exact ctts_eq p
  | stsc p => cases h; exact stsc_eq p
  | stco p => cases h; exact stco_eq p
  | co64 p => cases h; exact co64_eq p
  | stss p => cases h; exact stss_eq p
  | stsz p => cases h; exact stsz_eq p
  | sdtp p => cases h; exact sdtp_eq p
  | sbgp p => cases h; exact sbgp_eq p
  | tfhd p => cases h; exact tfhd_eq p
  | tfra p => cases h; exact tfra_eq p
  | trun p => cases h; exact trun_eq p
  | avcC p => cases h; exact avcC_eq p
  | av1C p => cases h; exact av1C_eq p
  | vpcC p => cases h; exact vpcC_eq p
  | dOps p => cases h; exact dOps_eq p
  | hdlr p => cases h; exact hdlr_eq p
  | url p => cases h; exact url_eq p
  | urn p => cases h; exact urn_eq p
  | emsg p => cases h; exact emsg_eq p
  | data p => cases h; exact data_eq p
  | colr p => cases h; exact colr_eq p
  | pssh p => cases h; exact pssh_eq p
  | ftyp p => cases h; exact ftyp_eq p
  | styp p => cases h; exact styp_eq p
  | esds p => cases h; exact esds_eq p
  | sgpd p => cases h; exact sgpd_eq p
  | visual p => cases h; exact visualSampleEntry_eq p
  | _ => cases h; rfl

theorem type_eq (c : Construction) (b : Box) (h : c.run = .ok b) : b.type = type c := by
  cases c with
  | audio p => rw [audio_run p b h]; rfl
  | _ => cases h; rfl

theorem header_eq (c : Construction) (b : Box) (h : c.run = .ok b) : b.header = none := by
  cases c with
  | audio p => rw [audio_run p b h]
  | _ => cases h; rfl

theorem letters_iff (c : Construction) (b : Box) (h : c.run = .ok b) (hl : Letters c) : b.data.LanguageOk := by
  cases c with
  | audio p => rw [audio_run p b h]; trivial
  | mdhd p =>
    cases h
    exact ⟨hl p.language.b0 (by simp), hl p.language.b1 (by simp), hl p.language.b2 (by simp)⟩
  | _ => cases h; trivial

theorem highProfile_iff (b : Byte) : is_avc_high_profile b = true ↔ highProfile b := by
  have : ∀ b : Byte, is_avc_high_profile b = decide (b.toNat ∈ [86, 100, 110, 118, 122, 128, 138, 144, 244]) := by
    decide +kernel
  rw [this b, decide_eq_true_iff]; rfl

theorem writable_iff (c : Construction) (b : Box) (h : c.run = .ok b) : b.data.Writable ↔ ¬ Unwritable c := by
  cases c with
  | audio p => rw [audio_run p b h]; simp [BoxData.Writable, Unwritable]
  | tfra p =>
    cases h
    show ((p.entries.map TfraEntry.new = [] ∨ (p.length_size_of_traf_num.toNat < 4 ∧
      p.length_size_of_trun_num.toNat < 4 ∧ p.length_size_of_sample_num.toNat < 4))) ↔ _
    rw [List.map_eq_nil_iff, Unwritable]
    by_cases he : p.entries = []
    · simp [he]
    · simp [he]
  | avcC p =>
    cases h
    show (p.high_profile_fields_enabled = true → is_avc_high_profile p.profile = true) ↔ _
    rw [highProfile_iff, Unwritable]
    by_cases h1 : p.high_profile_fields_enabled = true <;> simp [h1]
  | esds p =>
    cases h
    show (∀ d ∈ Descriptor.newList p.descriptors, d.UrlOk) ↔ _
    rw [newList_eq, Unwritable]
    constructor
    · intro hd ⟨q, subs, hm, hu, hlen⟩
      have := hd _ (List.mem_map.mpr ⟨_, hm, rfl⟩)
      rw [Descriptor.new] at this
      have := this hu
      have h2 : q.url_string.length ≤ 255 := this
      omega
    · intro hn d hd
      obtain ⟨dp, hm, rfl⟩ := List.mem_map.mp hd
      cases dp with
      | es q subs =>
        rw [Descriptor.new]
        intro hu
        rcases Nat.lt_or_ge 255 q.url_string.length with h1 | h1
        · exact absurd ⟨q, subs, hm, hu, h1⟩ hn
        · exact h1
      | _ => trivial
  | _ => cases h; simp [BoxData.Writable, Unwritable]

end Mp4.Built
