import Verif.Spec.Held
import Verif.Lemmas.Rewrite
import Verif.Lemmas.ReadExact

/-! # What `readData` reports, against the elements of what it returns -/

namespace Mp4
open R
variable {α β : Type}

/-- If `p` ends normally, the reported number and the result satisfy `P`. -/
def Gives (p : R (Nat × α)) (P : Nat → α → Prop) : Prop := Ensures p fun x => P x.1 x.2

theorem Ensures.bind2 {p : R (Nat × α)} {g : Nat × α → R β} {P : Nat → α → Prop} {Q : β → Prop}
    (hp : Gives p P) (hg : ∀ m a, P m a → Ensures (g (m, a)) Q) : Ensures (p.bind g) Q :=
  Ensures.bind hp fun x hx => hg x.1 x.2 hx

theorem Ensures.bindEnd {g : Nat → R β} {Q : β → Prop} (hg : ∀ k, Ensures (g k) Q) : Ensures (offsetToEnd.bind g) Q :=
  fun d s a s' hr => hg _ d s a s' hr

theorem Ensures.ite {c : Prop} [Decidable c] {p q : R α} {Q : α → Prop} (hp : Ensures p Q) (hq : Ensures q Q) :
    Ensures (if c then p else q) Q := by
  split
  · exact hp
  · exact hq

theorem pays_any (p : R (Nat × α)) : Gives p (fun m _ => 0 ≤ m) := fun _ _ _ _ _ => Nat.zero_le _

theorem pays_read_uint (w n : Nat) : Gives (read_uint w n) (fun m _ => m = n) := by
  unfold read_uint
  split
  · exact Ensures.throw
  · exact Ensures.bind (Ensures.any _) fun _ _ => Ensures.ret rfl

theorem pays_readN {p : R (Nat × α)} {f : α → Nat} (hp : Gives p (fun m a => f a ≤ m)) (n : Nat) :
    Gives (readN p n) (fun m l => (l.map f).sum ≤ m) := by
  induction n with
  | zero => exact Ensures.ret (Nat.zero_le _)
  | succ n ih =>
    rw [readN]
    refine Ensures.bind2 hp fun m a h1 => ?_
    refine Ensures.bind2 ih fun m' l h2 => ?_
    exact Ensures.ret (by simp only [List.map_cons, List.sum_cons]; omega)

theorem sum_const (c : Nat) (l : List α) : (l.map fun _ => c).sum = c * l.length := by
  induction l with
  | nil => rfl
  | cons a l ih => simp only [List.map_cons, List.sum_cons, ih, List.length_cons]; rw [Nat.mul_succ]; omega

theorem pays_entries {p : R (Nat × α)} (hp : Gives p (fun m _ => 8 ≤ m)) (n : Nat) :
    Gives (readN p n) (fun m l => 8 * l.length ≤ m) := by
  have := pays_readN (f := fun _ => 8) hp n
  intro d s a s' hr
  have h := this d s a s' hr
  dsimp only at h ⊢
  rw [sum_const] at h
  exact h

theorem pays_vector (w n : Nat) (h8 : 8 ≤ w) : Gives (read_vector_uint w n) (fun m l => 8 * l.length ≤ m) :=
  pays_entries (fun d s a s' hr => by have := pays_read_uint w w d s a s' hr; dsimp only at this ⊢; omega) n

theorem pays_array4 : Gives read_array_uint8_4 (fun m _ => m = 32) := by
  rw [read_array_uint8_4]
  refine Ensures.bind2 (pays_read_uint 8 8) fun _ _ _ => ?_
  refine Ensures.bind2 (pays_read_uint 8 8) fun _ _ _ => ?_
  refine Ensures.bind2 (pays_read_uint 8 8) fun _ _ _ => ?_
  refine Ensures.bind2 (pays_read_uint 8 8) fun _ _ _ => ?_
  exact Ensures.ret (by omega)

theorem pays_read_int (w n : Nat) : Gives (read_int w n) (fun m _ => m = n) := ensures_read_int w n

theorem pays_uvarint (w : Nat) : Gives (read_uvarint w) (fun m _ => 0 ≤ m) := pays_any _

theorem pays_bool : Gives read_bool (fun m _ => m = 1) := ensures_read_bool

theorem pays_stringGo (n : Nat) : Gives (readStringGo n) (fun m l => 8 * l.length ≤ m) := by
  induction n with
  | zero => exact Ensures.ret (Nat.zero_le _)
  | succ n ih =>
    rw [readStringGo]
    refine Ensures.bind (Ensures.any _) fun v _ => ?_
    dsimp only
    split
    · exact Ensures.ret (Nat.zero_le _)
    · refine Ensures.bind2 ih fun m l h => ?_
      exact Ensures.ret (by simp only [List.length_cons]; omega)

theorem pays_string (n : Nat) : Gives (read_string n) (fun m l => 8 * l.length ≤ m) := pays_stringGo _

theorem pays_bytes8 (n : Nat) : Gives (readBytes8 n) (fun m l => 8 * l.length ≤ m) := by
  induction n with
  | zero => exact Ensures.ret (Nat.zero_le _)
  | succ n ih =>
    rw [readBytes8]
    refine Ensures.bind (Ensures.any _) fun v _ => ?_
    refine Ensures.bind2 ih fun m l h => ?_
    exact Ensures.ret (by simp only [List.length_cons]; omega)

theorem pays_pascal (n : Nat) : Gives (read_pascal_string n) (fun m l => 8 * l.length ≤ m) := by
  rw [read_pascal_string]
  refine Ensures.ite (pays_string _) ?_
  refine Ensures.bind (Ensures.any _) fun _ _ => ?_
  refine Ensures.bind (Ensures.any _) fun _ _ => ?_
  refine Ensures.ite ?_ ?_
  · exact Ensures.bind (Ensures.any _) fun _ _ => pays_string _
  · refine Ensures.bind2 (pays_bytes8 _) fun m l h => ?_
    exact Ensures.ret (by dsimp only; omega)

macro "pays_prim" : tactic => `(tactic| first
  | with_reducible refine Ensures.bind2 (pays_read_uint _ _) (fun _ _ _ => ?_)
  | with_reducible refine Ensures.bind2 (pays_read_int _ _) (fun _ _ _ => ?_)
  | with_reducible refine Ensures.bind2 (pays_pascal _) (fun _ _ _ => ?_)
  | with_reducible refine Ensures.bind2 (pays_uvarint _) (fun _ _ _ => ?_)
  | with_reducible refine Ensures.bind2 pays_bool (fun _ _ _ => ?_)
  | with_reducible refine Ensures.bind2 pays_array4 (fun _ _ _ => ?_)
  | with_reducible refine Ensures.bind2 (pays_vector _ _ (by decide)) (fun _ _ _ => ?_)
  | with_reducible refine Ensures.bind2 (pays_string _) (fun _ _ _ => ?_)
  | with_reducible refine Ensures.bindEnd (fun _ => ?_)
  | with_reducible exact Ensures.throw
  | with_reducible refine Ensures.ite ?_ ?_
  | with_reducible refine Ensures.bind2 (pays_any _) (fun _ _ _ => ?_)
  | split)

macro "pays_ret" : tactic => `(tactic| (with_reducible refine Ensures.ret ?_; (try simp only [List.length_nil, List.map_nil, List.sum_nil] at *); omega))

macro "pays_step" : tactic => `(tactic| first | pays_ret | pays_prim)

macro "pays_box" "[" ts:Lean.Parser.Tactic.simpLemma,* "]" : tactic => `(tactic| (
  simp only [$ts,*, bind_eq, pure_eq, ret_bind, throw_bind, bind_assoc']
  repeat' pays_step))

/-- `p` reports at least 8 bits for each of the elements, counted by `f`, that it returns -/
def Pays (p : R (Nat × α)) (f : α → Nat) : Prop := Gives p fun m a => 8 * f a ≤ m

theorem pays_sttsEntry : Gives (SttsEntry.readData) (fun m _ => 8 ≤ m) := by unfold Gives; pays_box [SttsEntry.readData]
theorem pays_cttsEntry : Gives (CttsEntry.readData) (fun m _ => 8 ≤ m) := by unfold Gives; pays_box [CttsEntry.readData]
theorem pays_stscEntry : Gives (StscEntry.readData) (fun m _ => 8 ≤ m) := by unfold Gives; pays_box [StscEntry.readData]
theorem pays_sdtpSample : Gives (SdtpSample.readData) (fun m _ => 8 ≤ m) := by unfold Gives; pays_box [SdtpSample.readData]
theorem pays_sbgpEntry : Gives (SbgpEntry.readData) (fun m _ => 8 ≤ m) := by unfold Gives; pays_box [SbgpEntry.readData]
theorem pays_sidxReference : Gives (SidxReference.readData) (fun m _ => 8 ≤ m) := by unfold Gives; pays_box [SidxReference.readData]
theorem pays_tfraEntry (w l0 l1 l2) (h : 8 ≤ w) : Gives (TfraEntry.readData w l0 l1 l2) (fun m _ => 8 ≤ m) := by unfold Gives; pays_box [TfraEntry.readData]
theorem pays_elstEntry (w) (h : 8 ≤ w) : Gives (ElstEntry.readData w) (fun m _ => 8 ≤ m) := by unfold Gives; pays_box [ElstEntry.readData]
theorem pays_rollDistance (wl) : Gives (RollDistance.readData wl) (fun m _ => 8 ≤ m) := by unfold Gives; pays_box [RollDistance.readData]
theorem pays_rapEntry (wl) : Gives (RapEntry.readData wl) (fun m _ => 8 ≤ m) := by unfold Gives; pays_box [RapEntry.readData]
theorem pays_teleEntry (wl) : Gives (TeleEntry.readData wl) (fun m _ => 8 ≤ m) := by unfold Gives; pays_box [TeleEntry.readData]
theorem pays_startupOpt : Gives (StartupOpt.readData) (fun m _ => 8 ≤ m) := by unfold Gives; pays_box [StartupOpt.readData]

theorem vw_ge (fb : FullBox) : 8 ≤ vw fb := by unfold vw; split <;> omega

theorem pays_stco : Pays Stco.readData fun b => b.chunk_offsets.length := by unfold Pays Gives; pays_box [Stco.readData]
theorem pays_co64 : Pays Co64.readData fun b => b.chunk_offsets.length := by unfold Pays Gives; pays_box [Co64.readData]
theorem pays_stss : Pays Stss.readData fun b => b.sample_numbers.length := by unfold Pays Gives; pays_box [Stss.readData]
theorem pays_stsz : Pays Stsz.readData fun b => b.entry_sizes.length := by unfold Pays Gives; pays_box [Stsz.readData]
theorem pays_data : Pays Data.readData fun b => b.data.length := by unfold Pays Gives; pays_box [Data.readData]
theorem pays_opaque : Pays Opaque.readData fun b => b.data.length := by unfold Pays Gives; pays_box [Opaque.readData]
theorem pays_av1C : Pays Av1C.readData fun b => b.config_OBUs.length := by unfold Pays Gives; pays_box [Av1C.readData]
theorem pays_vpcC : Pays VpcC.readData fun b => b.codec_initialization_data.length := by unfold Pays Gives; pays_box [VpcC.readData]
theorem pays_dOps : Pays DOps.readData fun b => b.channel_mapping.length := by unfold Pays Gives; pays_box [DOps.readData]
theorem pays_stts : Pays Stts.readData fun b => b.entries.length := by
  unfold Pays Gives
  simp only [Stts.readData, bind_eq, pure_eq, ret_bind, throw_bind, bind_assoc']
  repeat' first
    | with_reducible refine Ensures.bind2 (pays_entries pays_sttsEntry _) (fun _ _ _ => ?_)
    | pays_step
theorem pays_ctts : Pays Ctts.readData fun b => b.entries.length := by
  unfold Pays Gives
  simp only [Ctts.readData, bind_eq, pure_eq, ret_bind, throw_bind, bind_assoc']
  repeat' first
    | with_reducible refine Ensures.bind2 (pays_entries pays_cttsEntry _) (fun _ _ _ => ?_)
    | pays_step
theorem pays_stsc : Pays Stsc.readData fun b => b.entries.length := by
  unfold Pays Gives
  simp only [Stsc.readData, bind_eq, pure_eq, ret_bind, throw_bind, bind_assoc']
  repeat' first
    | with_reducible refine Ensures.bind2 (pays_entries pays_stscEntry _) (fun _ _ _ => ?_)
    | pays_step
theorem pays_sdtp : Pays Sdtp.readData fun b => b.samples.length := by
  unfold Pays Gives
  simp only [Sdtp.readData, bind_eq, pure_eq, ret_bind, throw_bind, bind_assoc']
  repeat' first
    | with_reducible refine Ensures.bind2 (pays_entries pays_sdtpSample _) (fun _ _ _ => ?_)
    | pays_step
theorem pays_tfra : Pays Tfra.readData fun b => b.entries.length := by
  unfold Pays Gives
  simp only [Tfra.readData, bind_eq, pure_eq, ret_bind, throw_bind, bind_assoc']
  repeat' first
    | with_reducible refine Ensures.bind2 (pays_entries (pays_tfraEntry _ _ _ _ (vw_ge _)) _) (fun _ _ _ => ?_)
    | pays_step
theorem pays_elst : Pays Elst.readData fun b => b.entries.length := by
  unfold Pays Gives
  simp only [Elst.readData, bind_eq, pure_eq, ret_bind, throw_bind, bind_assoc']
  repeat' first
    | with_reducible refine Ensures.bind2 (pays_entries (pays_elstEntry _ (vw_ge _)) _) (fun _ _ _ => ?_)
    | pays_step
theorem pays_sidx : Pays Sidx.readData fun b => b.references.length := by
  unfold Pays Gives
  simp only [Sidx.readData, bind_eq, pure_eq, ret_bind, throw_bind, bind_assoc']
  repeat' first
    | with_reducible refine Ensures.bind2 (pays_entries pays_sidxReference _) (fun _ _ _ => ?_)
    | pays_step
theorem pays_sbgp (old) : Pays (Sbgp.readData old) fun b => b.entries.length := by
  unfold Pays Gives
  simp only [Sbgp.readData, bind_eq, pure_eq, ret_bind, throw_bind, bind_assoc']
  repeat' first
    | with_reducible refine Ensures.bind2 (pays_entries pays_sbgpEntry _) (fun _ _ _ => ?_)
    | pays_step
theorem pays_ftyp : Pays Ftyp.readData fun b => b.compatible_brands.length := by
  have h8 : Gives read_array_uint8_4 (fun m _ => 8 ≤ m) := fun d s a s' h => by
    have : a.1 = 32 := pays_array4 d s a s' h
    show 8 ≤ a.1
    omega
  unfold Pays Gives
  simp only [Ftyp.readData, bind_eq, pure_eq, ret_bind, throw_bind, bind_assoc']
  repeat' first
    | with_reducible refine Ensures.bind2 (pays_entries h8 _) (fun _ _ _ => ?_)
    | pays_step
theorem pays_emsg : Pays Emsg.readData fun b => b.scheme_uri.length + b.value.length + b.message_data.length := by
  unfold Pays Gives; pays_box [Emsg.readData, Emsg.readTail]
theorem pays_hdlr : Pays Hdlr.readData fun b => b.name.length + b.padding.length := by
  unfold Pays Gives; pays_box [Hdlr.readData]
theorem pays_url (old : Url) (h : old.location = []) : Pays (Url.readData old) fun b => b.location.length := by
  unfold Pays Gives; pays_box [Url.readData, h]
theorem pays_urn (old : Urn) (h : old.name = [] ∧ old.location = []) :
    Pays (Urn.readData old) fun b => b.name.length + b.location.length := by
  unfold Pays Gives; pays_box [Urn.readData, h.1, h.2]
theorem pays_colr (old : Colr) (h : old.profile = [] ∧ old.unknown = []) :
    Pays (Colr.readData old) fun b => b.profile.length + b.unknown.length := by
  unfold Pays Gives; pays_box [Colr.readData, h.1, h.2]
theorem pays_audio (old : AudioSampleEntry) (h : old.quick_time_data = []) :
    Pays (AudioSampleEntry.readData old) fun b => b.quick_time_data.length := by
  unfold Pays Gives; pays_box [AudioSampleEntry.readData, readReservedAndIndex, h]
theorem pays_pssh (old : Pssh) (h : old.kids = []) : Pays (Pssh.readData old) fun b => b.kids.length + b.data.length := by
  have h8 : Gives (read_arr 8 16) (fun m _ => 8 ≤ m) := by
    have hv : Gives (read_vector_uint 8 16) (fun m l => l.length = 16 ∧ 8 * l.length ≤ m) := fun d s a s' hr =>
      ⟨ensures_readN _ _ d s a s' hr, pays_vector 8 16 (by decide) d s a s' hr⟩
    unfold Gives
    rw [read_arr]
    refine Ensures.bind2 hv fun m l h => ?_
    exact Ensures.ret (by omega)
  have hk : Gives ((read_uint 32).bind fun x => (readN (read_arr 8 16) x.2.toNat).bind fun y => .ret (x.1 + y.1, y.2))
      (fun m l => 8 * l.length ≤ m) := by
    unfold Gives
    refine Ensures.bind2 (pays_read_uint _ _) fun _ _ _ => ?_
    refine Ensures.bind2 (pays_entries h8 _) fun _ _ _ => ?_
    pays_ret
  have ho : ∀ c : Bool, Gives (R.opt c ((read_uint 32).bind fun x =>
      (readN (read_arr 8 16) x.2.toNat).bind fun y => .ret (x.1 + y.1, y.2)) []) (fun m l => 8 * l.length ≤ m) := by
    intro c
    cases c
    · exact Ensures.ret (Nat.zero_le _)
    · exact hk
  unfold Pays Gives
  simp only [Pssh.readData, bind_eq, pure_eq, ret_bind, throw_bind, bind_assoc', h]
  repeat' first
    | with_reducible refine Ensures.bind2 (ho _) (fun _ _ _ => ?_)
    | pays_step

theorem pays_avcSet : Gives AVCParameterSet.readData (fun m nal => 8 * (1 + nal.length) ≤ m) := by
  unfold Gives; pays_box [AVCParameterSet.readData]

theorem sum_mul8 (f : α → Nat) (l : List α) : (l.map fun a => 8 * f a).sum = 8 * (l.map f).sum := by
  induction l with
  | nil => rfl
  | cons a l ih => simp only [List.map_cons, List.sum_cons, ih]; omega

theorem pays_avcSets (n : Nat) :
    Gives (readN AVCParameterSet.readData n) (fun m l => 8 * (l.map fun nal => 1 + nal.length).sum ≤ m) := by
  intro d s a s' hr
  have := pays_readN pays_avcSet n d s a s' hr
  dsimp only at this ⊢
  rwa [sum_mul8 (fun nal : List Byte => 1 + nal.length)] at this

theorem pays_avcC (old : AvcC) (h : old.sequence_parameter_sets_ext = []) :
    Pays (AvcC.readData old) fun b => (b.sequence_parameter_sets.map fun nal => 1 + nal.length).sum +
      (b.picture_parameter_sets.map fun nal => 1 + nal.length).sum +
      (b.sequence_parameter_sets_ext.map fun nal => 1 + nal.length).sum := by
  unfold Pays Gives
  simp only [AvcC.readData, bind_eq, pure_eq, ret_bind, throw_bind, bind_assoc', h]
  repeat' first
    | with_reducible refine Ensures.bind2 (pays_avcSets _) (fun _ _ _ => ?_)
    | pays_step

/-! ## `trun` -/

theorem pays_optU (c : Bool) (w n : Nat) (old : BitVec w) :
    Gives (R.opt c (read_uint w n) old) (fun m _ => m = if c then n else 0) := by
  cases c
  · exact Ensures.ret rfl
  · exact pays_read_uint w n

theorem pays_optI (c : Bool) (w n : Nat) (old : BitVec w) :
    Gives (R.opt c (read_int w n) old) (fun m _ => m = if c then n else 0) := by
  cases c
  · exact Ensures.ret rfl
  · exact pays_read_int w n

theorem pays_trun (old : Trun) :
    Gives (Trun.readData old) (fun m b => 8 * b.entries.length ≤ m + 8 * if b.fieldless then b.entries.length else 0) := by
  have he : ∀ fb : FullBox, (!fb.checkFlag 0x100#32 && !fb.checkFlag 0x200#32 && !fb.checkFlag 0x400#32 &&
      !fb.checkFlag 0x800#32) = false → Gives (TrunEntry.readData fb) (fun m _ => 8 ≤ m) := by
    intro fb hf
    unfold Gives
    rw [TrunEntry.readData]
    refine Ensures.bind2 (pays_optU _ _ _ _) fun m0 _ h0 => ?_
    refine Ensures.bind2 (pays_optU _ _ _ _) fun m1 _ h1 => ?_
    refine Ensures.bind2 (pays_optU _ _ _ _) fun m2 _ h2 => ?_
    refine Ensures.bind2 (pays_optI _ _ _ _) fun m3 _ h3 => ?_
    refine Ensures.ret ?_
    show 8 ≤ 0 + m0 + m1 + m2 + m3
    revert hf h0 h1 h2 h3
    cases fb.checkFlag 0x100#32 <;> cases fb.checkFlag 0x200#32 <;> cases fb.checkFlag 0x400#32 <;>
      cases fb.checkFlag 0x800#32 <;> simp <;> omega
  unfold Gives
  rw [Trun.readData]
  refine Ensures.bind2 (pays_any _) fun m0 fb _ => ?_
  refine Ensures.bind2 (pays_any _) fun m1 n _ => ?_
  refine Ensures.bind2 (pays_any _) fun m2 a _ => ?_
  refine Ensures.bind2 (pays_any _) fun m3 b _ => ?_
  cases hf : (!fb.checkFlag 0x100#32 && !fb.checkFlag 0x200#32 && !fb.checkFlag 0x400#32 && !fb.checkFlag 0x800#32) with
  | true =>
    refine Ensures.bind2 (pays_any _) fun m4 es _ => ?_
    refine Ensures.ret ?_
    have : Trun.fieldless ⟨fb, a, b, es⟩ = true := hf
    show 8 * es.length ≤ _ + 8 * if Trun.fieldless ⟨fb, a, b, es⟩ then es.length else 0
    rw [this, if_pos rfl]
    omega
  | false =>
    refine Ensures.bind2 (pays_entries (he fb hf) _) fun m4 es h => ?_
    refine Ensures.ret ?_
    show 8 * es.length ≤ m0 + m1 + m2 + m3 + m4 + _
    omega

/-! ## `sgpd` -/

theorem pays_startupEntry (l wl) :
    Gives (StartupEntry.readData l wl) (fun m e => 8 * (1 + e.sample_offsets.length + e.opts.length) ≤ m) := by
  unfold Gives
  simp only [StartupEntry.readData, bind_eq, pure_eq, ret_bind, throw_bind, bind_assoc']
  repeat' first
    | with_reducible refine Ensures.bind2 (pays_entries pays_startupOpt _) (fun _ _ _ => ?_)
    | pays_step

theorem pays_startupEntries (l wl) (n : Nat) : Gives (readN (StartupEntry.readData l wl) n)
    (fun m es => 8 * (es.map fun e => 1 + e.sample_offsets.length + e.opts.length).sum ≤ m) := by
  intro d s a s' hr
  have := pays_readN (pays_startupEntry l wl) n d s a s' hr
  dsimp only at this ⊢
  rwa [sum_mul8 (fun e : StartupEntry => 1 + e.sample_offsets.length + e.opts.length)] at this

theorem pays_sgpd (old : Sgpd) (h : old.roll_distances = [] ∧ old.alternative_startup_entries = [] ∧
    old.visual_random_access_entries = [] ∧ old.temporal_level_entries = []) :
    Pays (Sgpd.readData old) fun b => b.roll_distances.length +
      (b.alternative_startup_entries.map fun e => 1 + e.sample_offsets.length + e.opts.length).sum +
      b.visual_random_access_entries.length + b.temporal_level_entries.length := by
  obtain ⟨h1, h2, h3, h4⟩ := h
  unfold Pays Gives
  simp only [Sgpd.readData, bind_eq, pure_eq]
  refine Ensures.bind2 (pays_any _) fun m0 fb _ => ?_
  refine Ensures.bind2 (pays_any _) fun m1 gt _ => ?_
  refine Ensures.bind2 (pays_any _) fun m2 v _ => ?_
  dsimp only
  obtain ⟨b, hb, k1, k2, k3, k4⟩ : ∃ b : Sgpd, (if fb.version = 1 then
    ({ old with toFullBox := fb, grouping_type := gt, default_length := v } : Sgpd)
    else { old with toFullBox := fb, grouping_type := gt, default_sample_description_index := v }) = b ∧
      b.roll_distances = [] ∧ b.alternative_startup_entries = [] ∧
      b.visual_random_access_entries = [] ∧ b.temporal_level_entries = [] := by
    refine ⟨_, rfl, ?_⟩
    split
    · exact ⟨h1, h2, h3, h4⟩
    · exact ⟨h1, h2, h3, h4⟩
  rw [hb]
  generalize noDefaultLength fb.version b.default_length = nd
  with_reducible refine Ensures.ite ?_ (Ensures.ite ?_ (Ensures.ite ?_ (Ensures.ite ?_ ?_)))
  · refine Ensures.bind2 (pays_any _) fun _ n _ => ?_
    refine Ensures.bind2 (pays_entries (pays_rollDistance nd) _) fun _ l hl => ?_
    refine Ensures.ret ?_
    simp only [k2, k3, k4, List.length_nil, List.map_nil, List.sum_nil]
    omega
  · refine Ensures.bind2 (pays_any _) fun _ n _ => ?_
    refine Ensures.bind2 (pays_startupEntries _ _ _) fun _ l hl => ?_
    refine Ensures.ret ?_
    simp only [k1, k3, k4, List.length_nil]
    omega
  · refine Ensures.bind2 (pays_any _) fun _ n _ => ?_
    refine Ensures.bind2 (pays_entries (pays_rapEntry nd) _) fun _ l hl => ?_
    refine Ensures.ret ?_
    simp only [k1, k2, k4, List.length_nil, List.map_nil, List.sum_nil]
    omega
  · refine Ensures.bind2 (pays_any _) fun _ n _ => ?_
    refine Ensures.bind2 (pays_entries (pays_teleEntry nd) _) fun _ l hl => ?_
    refine Ensures.ret ?_
    simp only [k1, k2, k3, List.length_nil, List.map_nil, List.sum_nil]
    omega
  · refine Ensures.ret ?_
    simp only [k1, k2, k3, k4, List.length_nil, List.map_nil, List.sum_nil]
    omega

/-! ## `esds` -/

theorem pays_esFields (g) : Gives (ESFields.readData g) (fun m d => 8 * d.elements ≤ m) := by
  have ho : ∀ c : Bool, Gives (R.opt c ((read_uint 8).bind fun x =>
      (read_vector_uint 8 x.2.toNat).bind fun y => .ret (x.1 + y.1, y.2)) []) (fun m l => 8 * l.length ≤ m) := by
    intro c
    cases c
    · exact Ensures.ret (Nat.zero_le _)
    · unfold Gives
      refine Ensures.bind2 (pays_read_uint _ _) fun _ _ _ => ?_
      refine Ensures.bind2 (pays_vector _ _ (by decide)) fun _ _ _ => ?_
      pays_ret
  unfold Gives
  rw [ESFields.readData]
  refine Ensures.bind2 (pays_any _) fun m0 size _ => ?_
  refine Ensures.bind2 (pays_any _) fun m1 _ _ => ?_
  refine Ensures.bind2 (pays_any _) fun m2 _ _ => ?_
  refine Ensures.bind2 (pays_any _) fun m3 _ _ => ?_
  refine Ensures.bind2 (pays_any _) fun m4 _ _ => ?_
  refine Ensures.bind2 (pays_any _) fun m5 _ _ => ?_
  refine Ensures.bind2 (pays_any _) fun m6 _ _ => ?_
  refine Ensures.bind2 (ho _) fun m7 url h => ?_
  refine Ensures.bind2 (pays_any _) fun m8 _ _ => ?_
  refine Ensures.ret ?_
  show 8 * url.length ≤ m0 + m1 + m2 + m3 + m4 + m5 + m6 + m7 + m8
  clear ho
  omega

theorem pays_readInfo (mk : List Byte → Descriptor) (h : ∀ l, (mk l).elements = l.length) :
    Gives (readInfo mk) (fun m d => 8 * d.elements ≤ m) := by
  unfold Gives
  rw [readInfo]
  refine Ensures.bind2 (pays_any _) fun m _ _ => ?_
  refine Ensures.bind2 (pays_vector _ _ (by decide)) fun _ _ _ => ?_
  refine Ensures.ret ?_
  dsimp only
  rw [h]
  omega

theorem pays_decConfig : Gives DecConfigFields.readData (fun m d => 8 * d.elements ≤ m) := by
  unfold Gives
  pays_box [DecConfigFields.readData, Descriptor.elements]

theorem pays_esdsGo (g : ESJunk) (fb : FullBox) (fuel rb : Nat) (acc : List Descriptor)
    (h : 32 + 8 * (acc.map fun d => 1 + d.elements).sum ≤ rb) :
    Gives (Esds.readGo g fb fuel rb acc) (fun m b => 32 + 8 * (b.descriptors.map fun d => 1 + d.elements).sum ≤ m) := by
  have hs : ∀ (l : List Descriptor) (d : Descriptor), ((l ++ [d]).map fun d => 1 + d.elements).sum
      = (l.map fun d => 1 + d.elements).sum + (1 + d.elements) := by
    intro l d; simp
  induction fuel generalizing rb acc with
  | zero => exact Ensures.ret h
  | succ fuel ih =>
    unfold Gives
    rw [Esds.readGo]
    refine Ensures.bindEnd fun k => ?_
    refine Ensures.ite (Ensures.ret h) ?_
    refine Ensures.bind2 (pays_read_int _ _) fun r tag hr => ?_
    dsimp only
    refine Ensures.ite ?_ (Ensures.ite ?_ (Ensures.ite ?_ (Ensures.ite ?_ ?_)))
    · refine Ensures.bind2 (pays_esFields g) fun m d hd => ih _ _ ?_
      rw [hs]; dsimp only; omega
    · refine Ensures.bind2 pays_decConfig fun m d hd => ih _ _ ?_
      rw [hs]; dsimp only; omega
    · refine Ensures.bind2 (pays_readInfo _ fun _ => rfl) fun m d hd => ih _ _ ?_
      rw [hs]; dsimp only; omega
    · refine Ensures.bind2 (pays_readInfo _ fun _ => rfl) fun m d hd => ih _ _ ?_
      rw [hs]; dsimp only; omega
    · exact Ensures.ret (by dsimp only; omega)

theorem pays_fullBox : Gives FullBox.readVersionAndFlag (fun m _ => m = 32) := by
  unfold Gives
  pays_box [FullBox.readVersionAndFlag]

theorem pays_esds (g : ESJunk) :
    Gives (Esds.readData g) (fun m b => 32 + 8 * (b.descriptors.map fun d => 1 + d.elements).sum ≤ m) := by
  unfold Gives
  rw [Esds.readData]
  refine Ensures.bind2 pays_fullBox fun m fb h => ?_
  refine Ensures.bindEnd fun k => ?_
  exact pays_esdsGo g fb _ _ _ (by subst h; exact Nat.le_refl _)

/-! ## every class -/

/-- For every class: at least 8 bits reported for each element that is not an entry without bytes. -/
theorem BoxData.pays (env : Env) (hf : env.Fresh) (t : BoxType) (wave : Bool) (k : Kind) :
    Gives (BoxData.readData env t wave k) (fun m b => 8 * b.elements ≤ m + 8 * b.unbacked) := by
  have wrap : ∀ {β : Type} {p : R (Nat × β)} {C : β → BoxData}, Gives p (fun m b => 8 * (C b).elements ≤ m + 8 * (C b).unbacked) →
      Gives (p.bind fun x => .ret (x.1, C x.2)) (fun m b => 8 * b.elements ≤ m + 8 * b.unbacked) :=
    fun h => Ensures.bind h fun _ hx => Ensures.ret hx
  have ok : ∀ {β : Type} {p : R (Nat × β)} {C : β → BoxData} {f : β → Nat}, Pays p f → (∀ b, (C b).elements = f b) →
      Gives p (fun m b => 8 * (C b).elements ≤ m + 8 * (C b).unbacked) := fun h e d s a s' hr => by
    have := h d s a s' hr
    dsimp only at this ⊢
    rw [e]
    omega
  have zero : ∀ {β : Type} {p : R (Nat × β)} {C : β → BoxData}, (∀ b, (C b).elements = 0) →
      Gives p (fun m b => 8 * (C b).elements ≤ m + 8 * (C b).unbacked) := fun e d s a s' hr => by
    dsimp only
    rw [e]
    omega
  cases k with
  | trun => exact wrap (pays_trun env.trun)
  | esds =>
    refine wrap fun d s a s' hr => ?_
    have := pays_esds env.esds d s a s' hr
    show 8 * (a.2.descriptors.map fun d => 1 + d.elements).sum ≤ _
    dsimp only at this
    omega
  | elst => exact wrap (ok pays_elst fun _ => rfl)
  | sidx => exact wrap (ok pays_sidx fun _ => rfl)
  | stts => exact wrap (ok pays_stts fun _ => rfl)
  | ctts => exact wrap (ok pays_ctts fun _ => rfl)
  | stsc => exact wrap (ok pays_stsc fun _ => rfl)
  | stco => exact wrap (ok pays_stco fun _ => rfl)
  | co64 => exact wrap (ok pays_co64 fun _ => rfl)
  | stss => exact wrap (ok pays_stss fun _ => rfl)
  | stsz => exact wrap (ok pays_stsz fun _ => rfl)
  | sdtp => exact wrap (ok pays_sdtp fun _ => rfl)
  | sbgp => exact wrap (ok (pays_sbgp _) fun _ => rfl)
  | tfra => exact wrap (ok pays_tfra fun _ => rfl)
  | avcC => exact wrap (ok (pays_avcC _ hf.avcC) fun _ => rfl)
  | av1C => exact wrap (ok pays_av1C fun _ => rfl)
  | vpcC => exact wrap (ok pays_vpcC fun _ => rfl)
  | dOps => exact wrap (ok pays_dOps fun _ => rfl)
  | audio => exact wrap (ok (pays_audio _ hf.audio) fun _ => rfl)
  | hdlr => exact wrap (ok pays_hdlr fun _ => rfl)
  | url => exact wrap (ok (pays_url _ hf.url) fun _ => rfl)
  | urn => exact wrap (ok (pays_urn _ hf.urn) fun _ => rfl)
  | emsg => exact wrap (ok pays_emsg fun _ => rfl)
  | data => exact wrap (ok pays_data fun _ => rfl)
  | colr => exact wrap (ok (pays_colr _ hf.colr) fun _ => rfl)
  | pssh => exact wrap (ok (pays_pssh _ hf.pssh) fun _ => rfl)
  | ftyp => exact wrap (ok pays_ftyp fun _ => rfl)
  | opaq => exact wrap (ok pays_opaque fun _ => rfl)
  | sgpd => exact wrap (ok (pays_sgpd _ hf.sgpd) fun _ => rfl)
  | empty => exact Ensures.ret (Nat.zero_le _)
  | _ => exact wrap (zero fun _ => rfl)

end Mp4
