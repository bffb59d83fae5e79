import Verif.Model.Alloc
import Verif.Lemmas.Held

/-! # Allocations: the same programs, and what an allocator that refuses changes -/

namespace Mp4
variable {α β : Type}

namespace A

theorem bind_eq (x : A α) (f : α → A β) : (x >>= f) = x.bind f := rfl
theorem pure_eq (a : α) : (pure a : A α) = .ret a := rfl
theorem liftM_eq (x : R α) : (liftM x : A α) = lift x := rfl
theorem monadLift_eq (x : R α) : (MonadLift.monadLift x : A α) = lift x := rfl
theorem monadLiftT_eq (x : R α) : (MonadLiftT.monadLift x : A α) = lift x := rfl

theorem erase_ret (a : α) : (A.ret a).erase = .ret a := rfl
theorem erase_throw (e : Err) : (A.throw e : A α).erase = .throw e := rfl

theorem erase_lift (x : R α) : (lift x).erase = x := by
  induction x with
  | ret | throw => rfl
  | bit k ih | toEnd k ih | tell k ih => simp only [lift, erase, ih]
  | seek o k ih => simp only [lift, erase, ih]

theorem erase_bind (x : A α) (f : α → A β) : (x.bind f).erase = x.erase.bind fun a => (f a).erase := by
  induction x with
  | ret | throw => rfl
  | bit k ih | toEnd k ih | tell k ih => simp only [bind, erase, R.bind, ih]
  | seek o k ih | alloc n k ih => simp only [bind, erase, R.bind, ih]

theorem erase_ite {c : Prop} [Decidable c] (p q : A α) : (if c then p else q).erase = if c then p.erase else q.erase := by split <;> rfl

theorem erase_readN (p : R (Nat × α)) (n : Nat) : (A.readN p n).erase = Mp4.readN p n := by
  rw [readN, erase, erase_lift]

theorem erase_vector (w n : Nat) : (A.read_vector_uint w n).erase = Mp4.read_vector_uint w n := erase_readN _ n

theorem erase_loop {p : A (Nat × α)} {q : R (Nat × α)} (h : p.erase = q) (n : Nat) : (loop p n).erase = Mp4.readN q n := by
  induction n with
  | zero => rfl
  | succ n ih =>
    rw [loop, Mp4.readN]
    simp only [bind_eq, pure_eq, R.bind_eq, R.pure_eq, erase_bind, h]
    refine congrArg _ (funext fun x => ?_)
    obtain ⟨a, x⟩ := x
    dsimp only
    simp only [erase_bind, ih]
    refine congrArg _ (funext fun y => ?_)
    obtain ⟨b, l⟩ := y
    rfl

theorem erase_readNA {p : A (Nat × α)} {q : R (Nat × α)} (h : p.erase = q) (n : Nat) : (A.readNA p n).erase = Mp4.readN q n := by
  rw [readNA, erase, erase_loop h]

end A

macro "erase_simp" : tactic => `(tactic| simp only [A.bind_eq, A.pure_eq, A.liftM_eq, A.monadLift_eq, A.monadLiftT_eq, R.bind_eq, R.pure_eq, A.erase_bind, A.erase_lift, A.erase_ite, A.erase_ret, A.erase_throw, A.erase_readN, A.erase_vector])

macro "erase_step" : tactic => `(tactic| first
  | with_reducible rfl
  | (with_reducible refine congrArg _ (funext fun x => ?_); try (obtain ⟨_, _⟩ := x; dsimp only); (try erase_simp))
  | (with_reducible refine ite_congr rfl (fun _ => ?_) (fun _ => ?_)))

macro "erase_box" "[" ts:Lean.Parser.Tactic.simpLemma,* "]" : tactic => `(tactic| (
  simp only [$ts,*]
  erase_simp
  repeat' erase_step))

theorem erase_stts : Stts.readDataA.erase = Stts.readData := by erase_box [Stts.readDataA, Stts.readData]
theorem erase_ctts : Ctts.readDataA.erase = Ctts.readData := by erase_box [Ctts.readDataA, Ctts.readData]
theorem erase_stsc : Stsc.readDataA.erase = Stsc.readData := by erase_box [Stsc.readDataA, Stsc.readData]
theorem erase_stco : Stco.readDataA.erase = Stco.readData := by erase_box [Stco.readDataA, Stco.readData]
theorem erase_co64 : Co64.readDataA.erase = Co64.readData := by erase_box [Co64.readDataA, Co64.readData]
theorem erase_stss : Stss.readDataA.erase = Stss.readData := by erase_box [Stss.readDataA, Stss.readData]
theorem erase_stsz : Stsz.readDataA.erase = Stsz.readData := by erase_box [Stsz.readDataA, Stsz.readData]
theorem erase_sdtp : Sdtp.readDataA.erase = Sdtp.readData := by erase_box [Sdtp.readDataA, Sdtp.readData]
theorem erase_sbgp (o) : (Sbgp.readDataA o).erase = Sbgp.readData o := by erase_box [Sbgp.readDataA, Sbgp.readData]
theorem erase_elst : Elst.readDataA.erase = Elst.readData := by erase_box [Elst.readDataA, Elst.readData]
theorem erase_sidx : Sidx.readDataA.erase = Sidx.readData := by erase_box [Sidx.readDataA, Sidx.readData]
theorem erase_tfra : Tfra.readDataA.erase = Tfra.readData := by erase_box [Tfra.readDataA, Tfra.readData]
theorem erase_trun (o) : (Trun.readDataA o).erase = Trun.readData o := by erase_box [Trun.readDataA, Trun.readData]
theorem erase_audio (o) : (AudioSampleEntry.readDataA o).erase = AudioSampleEntry.readData o := by
  erase_box [AudioSampleEntry.readDataA, AudioSampleEntry.readData]
theorem erase_av1C : Av1C.readDataA.erase = Av1C.readData := by erase_box [Av1C.readDataA, Av1C.readData]
theorem erase_vpcC : VpcC.readDataA.erase = VpcC.readData := by erase_box [VpcC.readDataA, VpcC.readData]
theorem erase_dOps : DOps.readDataA.erase = DOps.readData := by erase_box [DOps.readDataA, DOps.readData]
theorem erase_data : Data.readDataA.erase = Data.readData := by erase_box [Data.readDataA, Data.readData]
theorem erase_colr (o) : (Colr.readDataA o).erase = Colr.readData o := by erase_box [Colr.readDataA, Colr.readData]
theorem erase_ftyp : Ftyp.readDataA.erase = Ftyp.readData := by erase_box [Ftyp.readDataA, Ftyp.readData]
theorem erase_opaque : Opaque.readDataA.erase = Opaque.readData := by erase_box [Opaque.readDataA, Opaque.readData]
theorem erase_tail (n b) : (Emsg.readTailA n b).erase = Emsg.readTail n b := by erase_box [Emsg.readTailA, Emsg.readTail]

theorem erase_emsg : Emsg.readDataA.erase = Emsg.readData := by
  simp only [Emsg.readDataA, Emsg.readData]
  erase_simp
  repeat' (first | exact erase_tail _ _ | erase_step)

theorem erase_hdlr : Hdlr.readDataA.erase = Hdlr.readData := by
  simp only [Hdlr.readDataA, Hdlr.readData]
  erase_simp
  repeat' (first | (refine congrArg₂ R.bind ?_ (funext fun x => ?_); split <;> rfl; try (obtain ⟨_, _⟩ := x; dsimp only); (try erase_simp)) | erase_step)

theorem A.erase_opt (c : Bool) (p : A (Nat × α)) (q : R (Nat × α)) (old : α) (h : p.erase = q) : (A.opt c p old).erase = R.opt c q old := by
  rw [A.opt, R.opt, A.erase_ite, h]
  rfl

theorem erase_pssh (o) : (Pssh.readDataA o).erase = Pssh.readData o := by
  have h : ∀ c, (A.opt c (do
      let (s0, kid_count) ← read_uint 32
      let (s1, kids) ← A.readN (read_arr 8 16) kid_count.toNat
      pure (s0 + s1, kids)) o.kids : A (Nat × List (Vector Byte 16))).erase = R.opt c (do
      let (s0, kid_count) ← read_uint 32
      let (s1, kids) ← readN (read_arr 8 16) kid_count.toNat
      pure (s0 + s1, kids)) o.kids := fun c => A.erase_opt _ _ _ _ (by erase_simp; repeat' erase_step)
  simp only [A.bind_eq, A.pure_eq, A.liftM_eq, A.monadLift_eq, A.monadLiftT_eq, R.bind_eq, R.pure_eq] at h
  simp only [Pssh.readDataA, Pssh.readData]
  erase_simp
  simp only [h]
  repeat' (first | erase_step | simp only [h])

theorem erase_parameterSet : AVCParameterSet.readDataA.erase = AVCParameterSet.readData := by
  erase_box [AVCParameterSet.readDataA, AVCParameterSet.readData]

theorem erase_avcC (o) : (AvcC.readDataA o).erase = AvcC.readData o := by
  simp only [AvcC.readDataA, AvcC.readData]
  erase_simp
  simp only [A.erase_readNA erase_parameterSet]
  repeat' (first | erase_step | (erase_simp; simp only [A.erase_readNA erase_parameterSet]; erase_step))

theorem erase_startup (l w) : (StartupEntry.readDataA l w).erase = StartupEntry.readData l w := by
  erase_box [StartupEntry.readDataA, StartupEntry.readData]

theorem erase_sgpd (o) : (Sgpd.readDataA o).erase = Sgpd.readData o := by
  simp only [Sgpd.readDataA, Sgpd.readData]
  erase_simp
  repeat' (first | erase_step | rw [A.erase_readNA (erase_startup _ _)])

theorem erase_info (mk) : (readInfoA mk).erase = readInfo mk := by erase_box [readInfoA, readInfo]

theorem erase_esFields (g) : (ESFields.readDataA g).erase = ESFields.readData g := by
  have h : ∀ c, (A.opt c (do
      let (s0, n) ← read_uint 8
      let (s1, url) ← A.read_vector_uint 8 n.toNat
      pure (s0 + s1, url)) [] : A (Nat × List Byte)).erase = R.opt c (do
      let (s0, n) ← read_uint 8
      let (s1, url) ← read_vector_uint 8 n.toNat
      pure (s0 + s1, url)) [] := fun c => A.erase_opt _ _ _ _ (by erase_simp; repeat' erase_step)
  simp only [A.bind_eq, A.pure_eq, A.liftM_eq, A.monadLift_eq, A.monadLiftT_eq, R.bind_eq, R.pure_eq] at h
  simp only [ESFields.readDataA, ESFields.readData]
  erase_simp
  repeat' (first | erase_step | simp only [h])

theorem erase_esdsGo (g fb n) : ∀ r acc, (Esds.readGoA g fb n r acc).erase = Esds.readGo g fb n r acc := by
  induction n with
  | zero => intros; rfl
  | succ n ih =>
    intro r acc
    rw [Esds.readGoA, Esds.readGo]
    erase_simp
    simp only [erase_info, erase_esFields, ih]
    repeat' (first | erase_step | simp only [erase_info, erase_esFields] | exact ih _ _)

theorem erase_esds (g) : (Esds.readDataA g).erase = Esds.readData g := by
  simp only [Esds.readDataA, Esds.readData]
  erase_simp
  repeat' (first | exact erase_esdsGo _ _ _ _ _ | erase_step)

/-- Without its allocations, `readData` is `readData`, for every class. -/
theorem erase_readData (env : Env) (t : BoxType) (wave : Bool) (k : Kind) : (BoxData.readDataA env t wave k).erase = BoxData.readData env t wave k := by
  cases k <;> simp only [BoxData.readDataA, BoxData.readData, A.erase_bind, A.erase_lift, A.erase_ret, erase_stts, erase_ctts, erase_stsc, erase_stco, erase_co64,
    erase_stss, erase_stsz, erase_sdtp, erase_sbgp, erase_elst, erase_sidx, erase_tfra, erase_trun, erase_audio, erase_av1C, erase_vpcC, erase_dOps, erase_data,
    erase_colr, erase_ftyp, erase_opaque, erase_emsg, erase_hdlr, erase_pssh, erase_avcC, erase_sgpd, erase_esds]

end Mp4
