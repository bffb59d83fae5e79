import Verif.Lemmas.Exact

/-! # `readData` of every box class: bits reported against bits consumed -/

namespace Mp4
open R

macro "exact_prim" : tactic => `(tactic| first
  | with_reducible exact exact_read_uint _ _ | with_reducible exact exact_read_int _ _ | with_reducible exact exact_read_bool | with_reducible exact exact_fullBox
  | with_reducible exact exact_read_array4 | with_reducible exact exact_read_vector_uint _ _ | with_reducible exact exact_read_arr _ _
  | with_reducible exact exact_read_arr_int _ _ | with_reducible exact exact_read_uvarint _ | with_reducible exact exact_read_string _
  | with_reducible exact exact_opt (exact_read_uint _ _) _ _ | with_reducible exact exact_opt (exact_read_int _ _) _ _
  | with_reducible exact exact_readN (exact_read_uint _ _) _ | with_reducible exact exact_readN exact_read_array4 _
  | with_reducible exact exact_readN (exact_read_arr _ _) _ | assumption)

macro "exact_step" : tactic => `(tactic| first
  | with_reducible refine ExactFrom.bind (by exact_prim) (fun _ _ => ?_)
  | with_reducible refine ExactFrom.bindEnd (fun _ => ?_)
  | with_reducible exact ExactFrom.throw
  | with_reducible exact ExactFrom.ret (by simp <;> omega)
  | with_reducible refine ExactFrom.ite ?_ ?_
  | (split))

macro "exact_box" "[" ts:Lean.Parser.Tactic.simpLemma,* "]" : tactic => `(tactic| (
  show ExactFrom 0 _
  simp only [$ts,*, bind_eq, pure_eq, ret_bind, throw_bind, bind_assoc']
  repeat exact_step))

theorem exact_btrt : Exact Btrt.readData := by exact_box [Btrt.readData]
theorem exact_pasp : Exact Pasp.readData := by exact_box [Pasp.readData]
theorem exact_fiel : Exact Fiel.readData := by exact_box [Fiel.readData]
theorem exact_smhd : Exact Smhd.readData := by exact_box [Smhd.readData]
theorem exact_vmhd : Exact Vmhd.readData := by exact_box [Vmhd.readData]
theorem exact_mfhd : Exact Mfhd.readData := by exact_box [Mfhd.readData]
theorem exact_mfro : Exact Mfro.readData := by exact_box [Mfro.readData]
theorem exact_dref : Exact Dref.readData := by exact_box [Dref.readData]
theorem exact_stsd : Exact Stsd.readData := by exact_box [Stsd.readData]
theorem exact_trex : Exact Trex.readData := by exact_box [Trex.readData]
theorem exact_mvhd : Exact Mvhd.readData := by exact_box [Mvhd.readData]
theorem exact_tkhd : Exact Tkhd.readData := by exact_box [Tkhd.readData]
theorem exact_mdhd : Exact Mdhd.readData := by exact_box [Mdhd.readData]
theorem exact_mehd : Exact Mehd.readData := by exact_box [Mehd.readData]
theorem exact_tfdt : Exact Tfdt.readData := by exact_box [Tfdt.readData]
theorem exact_data : Exact Data.readData := by exact_box [Data.readData]
theorem exact_url (old) : Exact (Url.readData old) := by exact_box [Url.readData]
theorem exact_urn (old) : Exact (Urn.readData old) := by exact_box [Urn.readData]
theorem exact_emsg : Exact Emsg.readData := by exact_box [Emsg.readData, Emsg.readTail]
theorem exact_colr (old) : Exact (Colr.readData old) := by exact_box [Colr.readData]
theorem exact_ftyp : Exact Ftyp.readData := by exact_box [Ftyp.readData]
theorem exact_meta : Exact Meta.readData := by exact_box [Meta.readData]
theorem exact_opaque : Exact Opaque.readData := by exact_box [Opaque.readData]
theorem exact_av1C : Exact Av1C.readData := by exact_box [Av1C.readData]
theorem exact_vpcC : Exact VpcC.readData := by exact_box [VpcC.readData]
theorem exact_dOps : Exact DOps.readData := by exact_box [DOps.readData]
theorem exact_visual (t) : Exact (VisualSampleEntry.readData t) := by
  exact_box [VisualSampleEntry.readData, readReservedAndIndex]
theorem exact_audio (t) : Exact (AudioSampleEntry.readData t) := by
  exact_box [AudioSampleEntry.readData, readReservedAndIndex]
theorem exact_tfhd (old) : Exact (Tfhd.readData old) := by exact_box [Tfhd.readData]
theorem exact_stco : Exact Stco.readData := by exact_box [Stco.readData]
theorem exact_co64 : Exact Co64.readData := by exact_box [Co64.readData]
theorem exact_stss : Exact Stss.readData := by exact_box [Stss.readData]
theorem exact_stsz : Exact Stsz.readData := by exact_box [Stsz.readData]

theorem exact_sttsEntry : Exact SttsEntry.readData := by exact_box [SttsEntry.readData]
theorem exact_stts : Exact Stts.readData := by
  have := exact_readN exact_sttsEntry
  exact_box [Stts.readData]
  exact ExactFrom.bind (this _) fun _ _ => ExactFrom.ret (by simp)
theorem exact_cttsEntry : Exact CttsEntry.readData := by exact_box [CttsEntry.readData]
theorem exact_ctts : Exact Ctts.readData := by
  have := exact_readN exact_cttsEntry
  exact_box [Ctts.readData]
  exact ExactFrom.bind (this _) fun _ _ => ExactFrom.ret (by simp)
theorem exact_stscEntry : Exact StscEntry.readData := by exact_box [StscEntry.readData]
theorem exact_stsc : Exact Stsc.readData := by
  have := exact_readN exact_stscEntry
  exact_box [Stsc.readData]
  exact ExactFrom.bind (this _) fun _ _ => ExactFrom.ret (by simp)
theorem exact_sdtpSample : Exact SdtpSample.readData := by exact_box [SdtpSample.readData]
theorem exact_sdtp : Exact Sdtp.readData := by
  have := exact_readN exact_sdtpSample
  exact_box [Sdtp.readData]
  exact ExactFrom.bind (this _) fun _ _ => ExactFrom.ret (by simp)
theorem exact_sbgpEntry : Exact SbgpEntry.readData := by exact_box [SbgpEntry.readData]
theorem exact_sbgp (old) : Exact (Sbgp.readData old) := by
  have := exact_readN exact_sbgpEntry
  exact_box [Sbgp.readData]
  exact ExactFrom.bind (this _) fun _ _ => ExactFrom.ret (by simp)
theorem exact_tfraEntry (w l0 l1 l2) : Exact (TfraEntry.readData w l0 l1 l2) := by exact_box [TfraEntry.readData]
theorem exact_tfra : Exact Tfra.readData := by
  have := fun w l0 l1 l2 => exact_readN (exact_tfraEntry w l0 l1 l2)
  exact_box [Tfra.readData]
  exact ExactFrom.bind (this _ _ _ _ _) fun _ _ => ExactFrom.ret (by simp)
theorem exact_trunEntry (fb) : Exact (TrunEntry.readData fb) := by exact_box [TrunEntry.readData]
theorem exact_trun (old) : Exact (Trun.readData old) := by
  have := fun fb => exact_readN (exact_trunEntry fb)
  exact_box [Trun.readData]
  exact ExactFrom.bind (this _ _) fun _ _ => ExactFrom.ret (by simp)
theorem exact_elstEntry (w) : Exact (ElstEntry.readData w) := by exact_box [ElstEntry.readData]
theorem exact_elst : Exact Elst.readData := by
  have := fun w => exact_readN (exact_elstEntry w)
  exact_box [Elst.readData]
  exact ExactFrom.bind (this _ _) fun _ _ => ExactFrom.ret (by simp)
theorem exact_sidxReference : Exact SidxReference.readData := by exact_box [SidxReference.readData]
theorem exact_sidx : Exact Sidx.readData := by
  have := exact_readN exact_sidxReference
  exact_box [Sidx.readData]
  exact ExactFrom.bind (this _) fun _ _ => ExactFrom.ret (by simp)
theorem exact_pssh (old) : Exact (Pssh.readData old) := by
  have h : Exact ((read_uint 32).bind fun x => (readN (read_arr 8 16) x.2.toNat).bind fun y =>
      .ret (x.1 + y.1, y.2)) := by
    show ExactFrom 0 _
    repeat exact_step
  have h' := fun c old => exact_opt h c old
  exact_box [Pssh.readData]
  refine ExactFrom.bind (h' _ _) fun _ _ => ?_
  repeat exact_step
theorem exact_rollDistance (wl) : Exact (RollDistance.readData wl) := by exact_box [RollDistance.readData]
theorem exact_startupOpt : Exact StartupOpt.readData := by exact_box [StartupOpt.readData]
theorem exact_startupEntry (l wl) : Exact (StartupEntry.readData l wl) := by
  have := exact_readN exact_startupOpt
  exact_box [StartupEntry.readData]
  all_goals exact ExactFrom.bind (this _) fun _ _ => ExactFrom.ret (by simp)
theorem exact_rapEntry (wl) : Exact (RapEntry.readData wl) := by exact_box [RapEntry.readData]
theorem exact_teleEntry (wl) : Exact (TeleEntry.readData wl) := by exact_box [TeleEntry.readData]
theorem exact_sgpd (old) : Exact (Sgpd.readData old) := by
  show ExactFrom 0 _
  simp only [Sgpd.readData, bind_eq, pure_eq]
  refine ExactFrom.bind exact_fullBox fun _ fb => ?_
  refine ExactFrom.bind exact_read_array4 fun _ gt => ?_
  refine ExactFrom.bind (exact_read_uint _ _) fun _ v => ?_
  dsimp only
  generalize (if fb.version = 1 then
    ({ old with toFullBox := fb, grouping_type := gt, default_length := v } : Sgpd)
    else { old with toFullBox := fb, grouping_type := gt, default_sample_description_index := v }) = b
  generalize noDefaultLength fb.version b.default_length = nd
  with_reducible refine ExactFrom.ite ?_ (ExactFrom.ite ?_ (ExactFrom.ite ?_ (ExactFrom.ite ?_ ?_)))
  · refine ExactFrom.bind (exact_read_uint _ _) fun _ n => ?_
    dsimp only
    refine ExactFrom.bind (p := readN (RollDistance.readData _) n.toNat) (exact_readN (exact_rollDistance _) _) fun _ _ => ?_
    exact ExactFrom.ret (by simp)
  · refine ExactFrom.bind (exact_read_uint _ _) fun _ n => ?_
    dsimp only
    refine ExactFrom.bind (p := readN (StartupEntry.readData _ _) n.toNat) (exact_readN (exact_startupEntry _ _) _) fun _ _ => ?_
    exact ExactFrom.ret (by simp)
  · refine ExactFrom.bind (exact_read_uint _ _) fun _ n => ?_
    dsimp only
    refine ExactFrom.bind (p := readN (RapEntry.readData _) n.toNat) (exact_readN (exact_rapEntry _) _) fun _ _ => ?_
    exact ExactFrom.ret (by simp)
  · refine ExactFrom.bind (exact_read_uint _ _) fun _ n => ?_
    dsimp only
    refine ExactFrom.bind (p := readN (TeleEntry.readData _) n.toNat) (exact_readN (exact_teleEntry _) _) fun _ _ => ?_
    exact ExactFrom.ret (by simp)
  · exact ExactFrom.ret (by simp)
theorem exact_pset : Exact AVCParameterSet.readData := by exact_box [AVCParameterSet.readData]


/-! ### Boxes whose reader looks at the stream position -/

/-- `s` is what is left of a stream with content `d` when the reader stands on a byte boundary. -/
def AtByte (d : List Byte) (s : List Bool) : Prop := s.length % 8 = 0 ∧ s <:+ bytesBits d

theorem AccAt.bind {α β : Type} {d : List Byte} {s : List Bool} {n : Nat} {p : R (Nat × α)} {g : Nat × α → R (Nat × β)}
    (hp : AccAt d s 0 p) (hg : ∀ m a s', p.run d s = .ok ((m, a), s') → AccAt d s' (n + m) (g (m, a))) :
    AccAt d s n (p.bind g) := by
  intro m b s' hr
  rw [run_bind] at hr
  cases h : p.run d s with
  | error e => rw [h] at hr; cases hr
  | ok x =>
    obtain ⟨⟨k, a⟩, s1⟩ := x
    rw [h] at hr
    obtain ⟨c1, e1, f1⟩ := hp k a s1 h
    obtain ⟨c2, e2, f2⟩ := hg k a s1 h m b s' hr
    refine ⟨c1 ++ c2, by rw [e1, e2, List.append_assoc], ?_⟩
    simp at f1 ⊢
    omega

/-- whole bytes only -/
abbrev Whole {α : Type} (p : R (Nat × α)) : Prop := Ensures p fun x => x.1 % 8 = 0

theorem AtByte.after {α : Type} {d : List Byte} {s s' : List Bool} {p : R (Nat × α)} {m : Nat} {a : α} (h : AtByte d s)
    (hp : Exact p) (hw : Whole p) (hr : p.run d s = .ok ((m, a), s')) : AtByte d s' := by
  obtain ⟨c, e, f⟩ := hp d s m a s' hr
  have hm := hw d s _ s' hr
  obtain ⟨h1, h2⟩ := h
  refine ⟨?_, (List.suffix_append c s').trans (e ▸ h2)⟩
  rw [e] at h1
  simp at h1 f hm
  omega

theorem whole_read_uint (w n : Nat) (h64 : n ≤ 64) (h8 : n % 8 = 0) : Whole (read_uint w n) :=
  fun d s a s' h => by
    have := (ensures_read_uint w n h64 d s a s' h).2
    simp only [this, h8]

theorem whole_readN {α : Type} {p : R (Nat × α)} (hp : Whole p) (n : Nat) : Whole (readN p n) := by
  induction n with
  | zero => exact Ensures.ret rfl
  | succ n ih =>
    rw [readN]
    exact Ensures.bind hp fun a ha => Ensures.bind ih fun b hb => Ensures.ret (by simp at ha hb ⊢; omega)

theorem whole_read_array4 : Whole read_array_uint8_4 := by
  rw [read_array_uint8_4]
  refine Ensures.bind (Ensures.any _) fun a _ => ?_
  refine Ensures.bind (Ensures.any _) fun a _ => ?_
  refine Ensures.bind (Ensures.any _) fun a _ => ?_
  refine Ensures.bind (Ensures.any _) fun a _ => ?_
  exact Ensures.ret (by simp)

theorem whole_fullBox : Whole FullBox.readVersionAndFlag := by
  rw [FullBox.readVersionAndFlag]
  refine Ensures.bind (whole_read_uint _ _ (by decide) (by decide)) fun a ha => ?_
  refine Ensures.bind (whole_read_uint _ _ (by decide) (by decide)) fun a ha => ?_
  refine Ensures.bind (whole_read_uint _ _ (by decide) (by decide)) fun a ha => ?_
  refine Ensures.bind (whole_read_uint _ _ (by decide) (by decide)) fun a ha => ?_
  exact Ensures.ret (by simp at *; omega)

theorem whole_readUvarintGo (w fuel : Nat) (val : BitVec w) (rb : Nat) (h : rb % 8 = 0) :
    Whole (readUvarintGo w fuel val rb) := by
  induction fuel generalizing val rb with
  | zero => exact Ensures.throw
  | succ fuel ih =>
    rw [readUvarintGo]
    refine Ensures.bind (Ensures.any _) fun v _ => ?_
    dsimp only
    split
    · exact Ensures.ret (by simp; omega)
    · exact ih _ _ (by omega)

theorem whole_read_uvarint (w : Nat) : Whole (read_uvarint w) :=
  Ensures.toEnd fun _ => whole_readUvarintGo w _ _ _ rfl

theorem acc_pascal {d : List Byte} {s : List Bool} (h : AtByte d s) (m : Nat) : AccAt d s 0 (read_pascal_string m) := by
  rw [read_pascal_string]
  split
  · exact exact_read_string m d s
  · intro k a s' hr
    obtain ⟨h1, h2⟩ := h
    obtain ⟨pre, hpre⟩ := h2
    simp only [bind_eq] at hr
    have ht : ∀ g : Nat → R (Nat × List Byte), (tellg.bind g).run d s = (g (d.length - s.length / 8)).run d s :=
      fun g => rfl
    rw [ht, run_bind] at hr
    cases hb : (readBits 8).run d s with
    | error e => rw [hb] at hr; cases hr
    | ok x =>
      obtain ⟨l, e1, f1, g1⟩ := run_readBits_ok 8 d s x.1 x.2 hb
      rw [hb] at hr
      dsimp only at hr
      split at hr
      · have hs : ∀ o (p : R (Nat × List Byte)), ((seekg o).bind fun _ => p).run d x.2
            = if o ≤ d.length then p.run d (x.2.take (x.2.length % 8) ++ bytesBits (d.drop o))
              else .error (.exc "istream::seekg() failed") := fun o p => rfl
        rw [hs, if_pos (by omega)] at hr
        have hl := congrArg List.length hpre
        have hl1 := congrArg List.length e1
        simp at hl hl1
        have h0 : x.2.length % 8 = 0 := by omega
        have hdrop : bytesBits (d.drop (d.length - s.length / 8)) = s := by
          rw [bytesBits_drop, ← hpre, List.drop_append, List.drop_eq_nil_of_le (by omega)]
          have hz : 8 * (d.length - s.length / 8) - pre.length = 0 := by omega
          rw [List.nil_append, hz, List.drop_zero]
        rw [h0, List.take_zero, List.nil_append, hdrop] at hr
        exact exact_read_string m d s k a s' hr
      · have := ExactFrom.bind (n := 8) (exact_readBytes8 (x.1.getD 0 0).toNat)
          (g := fun y => R.ret (y.1 + 8, y.2)) (fun _ _ => ExactFrom.ret (by omega)) d x.2 k a s' hr
        obtain ⟨c, e, f⟩ := this
        exact ⟨l ++ c, by rw [e1, e, List.append_assoc], by simp; omega⟩

theorem acc_hdlr {d : List Byte} {s : List Bool} (h : AtByte d s) : AccAt d s 0 Hdlr.readData := by
  simp only [Hdlr.readData, bind_eq, pure_eq]
  refine AccAt.bind (exact_fullBox _ _) fun _ _ s1 h1 => ?_
  have k1 := h.after exact_fullBox whole_fullBox h1
  refine AccAt.bind (exact_read_uint _ _ _ _) fun _ _ s2 h2 => ?_
  have k2 := k1.after (exact_read_uint _ _) (whole_read_uint _ _ (by decide) (by decide)) h2
  refine AccAt.bind (exact_read_array4 _ _) fun _ _ s3 h3 => ?_
  have k3 := k2.after exact_read_array4 whole_read_array4 h3
  refine AccAt.bind (exact_read_array4 _ _) fun _ _ s4 h4 => ?_
  have k4 := k3.after exact_read_array4 whole_read_array4 h4
  refine AccAt.bind (exact_read_array4 _ _) fun _ _ s5 h5 => ?_
  have k5 := k4.after exact_read_array4 whole_read_array4 h5
  refine AccAt.bind (exact_read_array4 _ _) fun _ _ s6 h6 => ?_
  have k6 := k5.after exact_read_array4 whole_read_array4 h6
  intro m a s' hr
  have ht : ∀ g : Nat → R (Nat × Hdlr), (offsetToEnd.bind g).run d s6 = (g (s6.length / 8)).run d s6 := fun g => rfl
  rw [ht] at hr
  split at hr
  · refine AccAt.bind (acc_pascal k6 _) ?_ m a s' hr
    intro _ _ s7 _
    suffices h : ExactFrom _ _ from h d s7
    apply ExactFrom.ite
    · exact ExactFrom.throw
    · exact ExactFrom.bind (exact_read_vector_uint _ _) fun _ _ => ExactFrom.ret (by simp)
  · refine AccAt.bind (exact_read_string _ _ _) ?_ m a s' hr
    intro _ _ s7 _
    suffices h : ExactFrom _ _ from h d s7
    apply ExactFrom.ite
    · exact ExactFrom.throw
    · exact ExactFrom.bind (exact_read_vector_uint _ _) fun _ _ => ExactFrom.ret (by simp)

/-! ### The three exceptions -/

/-- `p` consumes a prefix and reports its length plus some excess `e` with `X e a s'` (`a` the result, `s'` what is
left), beside the `n` bits counted before. -/
def Over {α : Type} (X : Nat → α → List Bool → Prop) (n : Nat) (p : R (Nat × α)) : Prop :=
  ∀ d s m a s', p.run d s = .ok ((m, a), s') → ∃ c e, s = c ++ s' ∧ X e a s' ∧ m = n + c.length + e

theorem Over.bind {α β : Type} {X : Nat → β → List Bool → Prop} {n : Nat} {p : R (Nat × α)} {g : Nat × α → R (Nat × β)}
    (hp : Exact p) (hg : ∀ m a, Over X (n + m) (g (m, a))) : Over X n (p.bind g) := by
  intro d s m b s' hr
  rw [run_bind] at hr
  cases h : p.run d s with
  | error e => rw [h] at hr; cases hr
  | ok x =>
    obtain ⟨⟨k, a⟩, s1⟩ := x
    rw [h] at hr
    obtain ⟨c1, e1, f1⟩ := hp d s k a s1 h
    obtain ⟨c2, e, e2, hx, f2⟩ := hg k a d s1 m b s' hr
    refine ⟨c1 ++ c2, e, by rw [e1, e2, List.append_assoc], hx, ?_⟩
    simp at f1 ⊢
    omega

theorem Over.exact {α : Type} {X : Nat → α → List Bool → Prop} {n : Nat} {p : R (Nat × α)} (h : ExactFrom n p)
    (hx : ∀ a s', X 0 a s') : Over X n p := by
  intro d s m a s' hr
  obtain ⟨c, e, f⟩ := h d s m a s' hr
  exact ⟨c, 0, e, hx a s', f⟩

theorem Over.ite {α : Type} {X : Nat → α → List Bool → Prop} {n : Nat} {c : Prop} [Decidable c] {p q : R (Nat × α)}
    (hp : Over X n p) (hq : Over X n q) : Over X n (if c then p else q) := by
  split
  · exact hp
  · exact hq

/-- the excess of `avcC` -/
def AvcOver (e : Nat) (_ : AvcC) (s' : List Bool) : Prop := e = 0 ∨ (s'.length < 32 ∧ e = 8 * (s'.length / 8))

theorem over_avcC (old : AvcC) : Over AvcOver 0 (AvcC.readData old) := by
  have hN := exact_readN exact_pset
  simp only [AvcC.readData, bind_eq, pure_eq]
  refine Over.bind (exact_read_uint _ _) fun _ _ => ?_
  refine Over.bind (exact_read_uint _ _) fun _ _ => ?_
  refine Over.bind (exact_read_uint _ _) fun _ _ => ?_
  refine Over.bind (exact_read_uint _ _) fun _ _ => ?_
  refine Over.bind (exact_read_uint _ _) fun _ _ => ?_
  refine Over.bind (exact_read_uint _ _) fun _ _ => ?_
  refine Over.bind (exact_read_uint _ _) fun _ _ => ?_
  refine Over.bind (exact_read_uint _ _) fun _ _ => ?_
  refine Over.bind (hN _) fun _ _ => ?_
  refine Over.bind (exact_read_uint _ _) fun _ _ => ?_
  refine Over.bind (hN _) fun _ _ => ?_
  refine Over.ite (Over.exact (ExactFrom.ret (by simp)) fun _ _ => Or.inl rfl) ?_
  intro d s m a s' hr
  have ht : ∀ g : Nat → R (Nat × AvcC), (offsetToEnd.bind g).run d s = (g (s.length / 8)).run d s := fun g => rfl
  rw [ht] at hr
  split at hr
  · next h4 =>
    cases hr
    exact ⟨[], _, rfl, Or.inr ⟨by omega, rfl⟩, by simp; omega⟩
  · refine Over.exact ?_ (fun _ _ => Or.inl rfl) d s m a s' hr
    refine ExactFrom.bind (exact_read_uint _ _) fun _ _ => ?_
    refine ExactFrom.bind (exact_read_uint _ _) fun _ _ => ?_
    refine ExactFrom.bind (exact_read_uint _ _) fun _ _ => ?_
    refine ExactFrom.bind (exact_read_uint _ _) fun _ _ => ?_
    refine ExactFrom.bind (exact_read_uint _ _) fun _ _ => ?_
    refine ExactFrom.bind (exact_read_uint _ _) fun _ _ => ?_
    refine ExactFrom.bind (exact_read_uint _ _) fun _ _ => ?_
    refine ExactFrom.bind (hN _) fun _ _ => ?_
    exact ExactFrom.ret (by simp)

/-- the excess of `esds` -/
def EsdsOver (e : Nat) (_ : Esds) (s' : List Bool) : Prop := e = 0 ∨ e = 8 * (s'.length / 8) + 8

theorem exact_esFields (g : ESJunk) : Exact (ESFields.readData g) := by
  have h : Exact (do
      let (s0, n) ← read_uint 8
      let (s1, url) ← read_vector_uint 8 n.toNat
      pure (s0 + s1, url) : R (Nat × List Byte)) :=
    ExactFrom.bind (n := 0) (exact_read_uint _ _) fun _ _ => ExactFrom.bind (exact_read_vector_uint _ _) fun _ _ =>
      ExactFrom.ret (by simp)
  show ExactFrom 0 _
  rw [ESFields.readData]
  refine ExactFrom.bind (exact_read_uvarint _) fun _ _ => ?_
  refine ExactFrom.bind (exact_read_uint _ _) fun _ _ => ?_
  refine ExactFrom.bind exact_read_bool fun _ _ => ?_
  refine ExactFrom.bind exact_read_bool fun _ _ => ?_
  refine ExactFrom.bind exact_read_bool fun _ _ => ?_
  refine ExactFrom.bind (exact_read_int _ _) fun _ _ => ?_
  refine ExactFrom.bind (exact_opt (exact_read_uint _ _) _ _) fun _ _ => ?_
  refine ExactFrom.bind (exact_opt h _ _) fun _ _ => ?_
  refine ExactFrom.bind (exact_opt (exact_read_uint _ _) _ _) fun _ _ => ?_
  exact ExactFrom.ret (by simp)

theorem exact_decConfig : Exact DecConfigFields.readData := by exact_box [DecConfigFields.readData]
theorem exact_readInfo (mk) : Exact (readInfo mk) := by exact_box [readInfo]

theorem over_esdsGo (g : ESJunk) (fb : FullBox) (fuel rb : Nat) (acc : List Descriptor) :
    Over EsdsOver rb (Esds.readGo g fb fuel rb acc) := by
  induction fuel generalizing rb acc with
  | zero => exact Over.exact (ExactFrom.ret rfl) fun _ _ => Or.inl rfl
  | succ fuel ih =>
    intro d s m a s' hr
    rw [Esds.readGo] at hr
    have ht : ∀ g : Nat → R (Nat × Esds), (offsetToEnd.bind g).run d s = (g (s.length / 8)).run d s := fun g => rfl
    simp only [bind_eq] at hr
    rw [ht] at hr
    split at hr
    · exact Over.exact (ExactFrom.ret rfl) (fun _ _ => Or.inl rfl) d s m a s' hr
    · next h0 =>
      rw [run_bind] at hr
      cases h : (read_int 8 8).run d s with
      | error e => rw [h] at hr; cases hr
      | ok x =>
        obtain ⟨⟨k, tag⟩, s1⟩ := x
        rw [h] at hr
        obtain ⟨c1, e1, f1⟩ := exact_read_int 8 8 d s k tag s1 h
        have hk : k = 8 := by
          rw [read_int, if_neg (by decide)] at h
          simp only [bind_eq, run_bind] at h
          cases hb : (readBits 8).run d s with
          | error e => rw [hb] at h; cases h
          | ok y =>
            rw [hb] at h
            dsimp only at h
            revert h
            repeat' split
            all_goals (intro h; cases h; rfl)
        suffices hs : ∃ c e, s1 = c ++ s' ∧ EsdsOver e a s' ∧ m = rb + k + c.length + e by
          obtain ⟨c2, e, e2, hx, f2⟩ := hs
          refine ⟨c1 ++ c2, e, by rw [e1, e2, List.append_assoc], hx, ?_⟩
          simp at f1 ⊢
          omega
        dsimp only at hr
        split at hr
        · exact Over.bind (exact_esFields g) (fun _ _ => ih _ _) d s1 m a s' hr
        split at hr
        · exact Over.bind exact_decConfig (fun _ _ => ih _ _) d s1 m a s' hr
        split at hr
        · exact Over.bind (exact_readInfo _) (fun _ _ => ih _ _) d s1 m a s' hr
        split at hr
        · exact Over.bind (exact_readInfo _) (fun _ _ => ih _ _) d s1 m a s' hr
        · cases hr
          refine ⟨[], _, rfl, Or.inr rfl, ?_⟩
          rw [e1, List.length_append]
          simp at f1 ⊢
          omega

theorem over_esds (g : ESJunk) : Over EsdsOver 0 (Esds.readData g) := by
  rw [Esds.readData]
  refine Over.bind exact_fullBox fun m fb => ?_
  intro d s k a s' hr
  rw [Nat.zero_add]
  exact over_esdsGo g fb _ m [] d s k a s' hr

theorem whole_opt {α : Type} {p : R (Nat × α)} (hp : Whole p) (c : Bool) (old : α) : Whole (R.opt c p old) := by
  cases c
  · exact Ensures.ret rfl
  · exact hp

theorem ensures_read_bool : Ensures read_bool fun x => x.1 = 1 :=
  Ensures.bind (Ensures.any _) fun _ _ => Ensures.ret rfl

theorem ensures_read_int (w n : Nat) : Ensures (read_int w n) fun x => x.1 = n := by
  unfold read_int
  split
  · exact Ensures.throw
  · refine Ensures.bind (Ensures.any _) fun v _ => ?_
    dsimp only
    split
    · exact Ensures.ret rfl
    · split <;> exact Ensures.ret rfl

theorem whole_esFields (g : ESJunk) : Whole (ESFields.readData g) := by
  have hw : Whole (do
      let (s0, n) ← read_uint 8
      let (s1, url) ← read_vector_uint 8 n.toNat
      pure (s0 + s1, url) : R (Nat × List Byte)) :=
    Ensures.bind (whole_read_uint _ _ (by decide) (by decide)) fun _ h1 =>
      Ensures.bind (whole_readN (whole_read_uint _ _ (by decide) (by decide)) _) fun _ h2 =>
        Ensures.ret (by simp at h1 h2 ⊢; omega)
  rw [ESFields.readData]
  refine Ensures.bind (whole_read_uvarint _) fun _ h0 => ?_
  refine Ensures.bind (whole_read_uint _ _ (by decide) (by decide)) fun _ h1 => ?_
  refine Ensures.bind ensures_read_bool fun _ h2 => ?_
  refine Ensures.bind ensures_read_bool fun _ h3 => ?_
  refine Ensures.bind ensures_read_bool fun _ h4 => ?_
  refine Ensures.bind (ensures_read_int _ _) fun _ h5 => ?_
  refine Ensures.bind (whole_opt (whole_read_uint _ _ (by decide) (by decide)) _ _) fun _ h6 => ?_
  refine Ensures.bind (whole_opt hw _ _) fun _ h7 => ?_
  refine Ensures.bind (whole_opt (whole_read_uint _ _ (by decide) (by decide)) _ _) fun _ h8 => ?_
  exact Ensures.ret (by simp at *; omega)

theorem whole_decConfig : Whole DecConfigFields.readData := by
  rw [DecConfigFields.readData]
  refine Ensures.bind (whole_read_uvarint _) fun _ h0 => ?_
  refine Ensures.bind (whole_read_uint _ _ (by decide) (by decide)) fun _ h1 => ?_
  refine Ensures.bind (ensures_read_int _ _) fun _ h2 => ?_
  refine Ensures.bind ensures_read_bool fun _ h3 => ?_
  refine Ensures.bind ensures_read_bool fun _ h4 => ?_
  refine Ensures.bind (whole_read_uint _ _ (by decide) (by decide)) fun _ h5 => ?_
  refine Ensures.bind (whole_read_uint _ _ (by decide) (by decide)) fun _ h6 => ?_
  refine Ensures.bind (whole_read_uint _ _ (by decide) (by decide)) fun _ h7 => ?_
  exact Ensures.ret (by simp at *; omega)

theorem whole_readInfo (mk) : Whole (readInfo mk) := by
  rw [readInfo]
  exact Ensures.bind (whole_read_uvarint _) fun _ h1 =>
      Ensures.bind (whole_readN (whole_read_uint _ _ (by decide) (by decide)) _) fun _ h2 =>
        Ensures.ret (by simp at h1 h2 ⊢; omega)

/-- A run of `p` that starts on a byte boundary ends on one. -/
def Keeps {α : Type} (p : R α) : Prop := ∀ d s a s', s.length % 8 = 0 → p.run d s = .ok (a, s') → s'.length % 8 = 0

theorem Keeps.of {α : Type} {p : R (Nat × α)} (hp : Exact p) (hw : Whole p) : Keeps p := by
  intro d s a s' h hr
  obtain ⟨c, e, f⟩ := hp d s a.1 a.2 s' hr
  have hm := hw d s _ s' hr
  rw [e] at h
  simp at h f hm
  omega

theorem Keeps.bind {α β : Type} {p : R α} {g : α → R β} (hp : Keeps p) (hg : ∀ a, Keeps (g a)) : Keeps (p.bind g) := by
  intro d s b s' h hr
  rw [run_bind] at hr
  cases hx : p.run d s with
  | error e => rw [hx] at hr; cases hr
  | ok x => rw [hx] at hr; exact hg x.1 d x.2 b s' (hp d s x.1 x.2 h hx) hr

theorem Keeps.ret {α : Type} {a : α} : Keeps (.ret a) := by
  intro d s b s' h hr
  cases hr
  exact h

theorem Keeps.toEnd {α : Type} {k : Nat → R α} (h : ∀ n, Keeps (k n)) : Keeps (offsetToEnd.bind k) :=
  fun d s a s' hl hr => h _ d s a s' hl hr

theorem Keeps.ite {α : Type} {c : Prop} [Decidable c] {p q : R α} (hp : Keeps p) (hq : Keeps q) :
    Keeps (if c then p else q) := by
  split
  · exact hp
  · exact hq

theorem keeps_esds (g : ESJunk) : Keeps (Esds.readData g) := by
  have go : ∀ fb fuel rb acc, Keeps (Esds.readGo g fb fuel rb acc) := by
    intro fb fuel
    induction fuel with
    | zero => intro rb acc; exact Keeps.ret
    | succ fuel ih =>
      intro rb acc
      rw [Esds.readGo]
      refine Keeps.toEnd fun n => Keeps.ite Keeps.ret ?_
      refine Keeps.bind (Keeps.of (exact_read_int _ _) fun d s a s' h => ?_) fun x => ?_
      · have := ensures_read_int 8 8 d s a s' h
        simp only [this]
      · dsimp only
        refine Keeps.ite (Keeps.bind (Keeps.of (exact_esFields g) (whole_esFields g)) fun _ => ih _ _) ?_
        refine Keeps.ite (Keeps.bind (Keeps.of exact_decConfig whole_decConfig) fun _ => ih _ _) ?_
        refine Keeps.ite (Keeps.bind (Keeps.of (exact_readInfo _) (whole_readInfo _)) fun _ => ih _ _) ?_
        refine Keeps.ite (Keeps.bind (Keeps.of (exact_readInfo _) (whole_readInfo _)) fun _ => ih _ _) ?_
        exact Keeps.ret
  rw [Esds.readData]
  exact Keeps.bind (Keeps.of exact_fullBox whole_fullBox) fun _ => Keeps.toEnd fun _ => go _ _ _ _

theorem whole_pset : Whole AVCParameterSet.readData := by
  rw [AVCParameterSet.readData]
  exact Ensures.bind (whole_read_uint _ _ (by decide) (by decide)) fun _ h1 =>
      Ensures.bind (whole_readN (whole_read_uint _ _ (by decide) (by decide)) _) fun _ h2 =>
        Ensures.ret (by simp at h1 h2 ⊢; omega)

theorem keeps_two {α : Type} {w n k : Nat} (h : (n + k) % 8 = 0) (hn : n ≤ 64) (hk : k ≤ 64)
    {g : Nat × BitVec w → Nat × BitVec w → R α} (hg : ∀ x y, Keeps (g x y)) :
    Keeps ((read_uint w n).bind fun x => (read_uint w k).bind fun y => g x y) := by
  intro d s a s' hl hr
  have key : ((read_uint w n).bind fun x => (read_uint w k).bind fun y => g x y)
      = (((read_uint w n).bind fun x => (read_uint w k).bind fun y => .ret (x.1 + y.1, (x, y))).bind
        fun z => g z.2.1 z.2.2) := by
    simp only [bind_assoc', ret_bind]
  rw [key] at hr
  refine Keeps.bind (Keeps.of ?_ ?_) (fun z => hg _ _) d s a s' hl hr
  · exact ExactFrom.bind (n := 0) (exact_read_uint _ _) fun _ _ => ExactFrom.bind (exact_read_uint _ _) fun _ _ =>
      ExactFrom.ret (by simp)
  · exact Ensures.bind (ensures_read_uint w n hn) fun _ h1 => Ensures.bind (ensures_read_uint w k hk) fun _ h2 =>
      Ensures.ret (by simp at h1 h2 ⊢; omega)

theorem keeps_avcC (old : AvcC) : Keeps (AvcC.readData old) := by
  have hN := fun n => Keeps.of (exact_readN exact_pset n) (whole_readN whole_pset n)
  have hb : Keeps (read_uint 8 8) := Keeps.of (exact_read_uint _ _) (whole_read_uint _ _ (by decide) (by decide))
  simp only [AvcC.readData, bind_eq, pure_eq]
  refine Keeps.bind hb fun _ => Keeps.bind hb fun _ => Keeps.bind hb fun _ => Keeps.bind hb fun _ => ?_
  refine keeps_two (by decide) (by decide) (by decide) fun _ _ => ?_
  refine keeps_two (by decide) (by decide) (by decide) fun _ _ => ?_
  refine Keeps.bind (hN _) fun _ => Keeps.bind hb fun _ => Keeps.bind (hN _) fun _ => ?_
  refine Keeps.ite Keeps.ret (Keeps.toEnd fun _ => Keeps.ite Keeps.ret ?_)
  refine keeps_two (by decide) (by decide) (by decide) fun _ _ => ?_
  refine keeps_two (by decide) (by decide) (by decide) fun _ _ => ?_
  refine keeps_two (by decide) (by decide) (by decide) fun _ _ => ?_
  exact Keeps.bind hb fun _ => Keeps.bind (hN _) fun _ => Keeps.ret

/-- the excess of `iods` -/
def IodsOver (e : Nat) (b : Iods) (_ : List Bool) : Prop := e = ((b.descriptor_length - 7#32) * 8#32).toNat

theorem over_iods : Over IodsOver 0 Iods.readData := by
  rw [Iods.readData]
  simp only [bind_eq, pure_eq]
  refine Over.bind exact_fullBox fun _ _ => ?_
  refine Over.bind (exact_read_uint _ _) fun _ _ => ?_
  refine Over.bind (exact_read_uvarint _) fun _ _ => ?_
  refine Over.bind (exact_read_uint _ _) fun _ _ => ?_
  refine Over.bind (exact_read_uint _ _) fun _ _ => ?_
  refine Over.bind (exact_read_uint _ _) fun _ _ => ?_
  refine Over.bind (exact_read_uint _ _) fun _ _ => ?_
  refine Over.bind (exact_read_uint _ _) fun _ _ => ?_
  refine Over.bind (exact_read_uint _ _) fun _ _ => ?_
  intro d s m a s' hr
  cases hr
  exact ⟨[], _, rfl, rfl, by simp⟩

end Mp4
