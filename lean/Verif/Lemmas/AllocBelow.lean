import Verif.Lemmas.AllocRun

/-! # No class requests more than 2^32 - 1 elements or eight times its payload -/

namespace Mp4
open A

macro "below_side" : tactic => `(tactic| first
  | (left; exact BitVec.isLt _)
  | (left; exact Nat.lt_trans (BitVec.isLt _) (by decide))
  | (right; omega)
  | (left; omega))

macro "below_simp" : tactic => `(tactic| simp only [A.bind_eq, A.pure_eq, A.liftM_eq, A.monadLift_eq, A.monadLiftT_eq])

macro "below_step" : tactic => `(tactic| first
  | with_reducible refine Below.bindEnd (fun o ho => ?_)
  | with_reducible refine Below.bind (Below.lift _ _) (fun x => ?_)
  | with_reducible refine Below.bind (Below.readN _ (by below_side)) (fun x => ?_)
  | with_reducible refine Below.bind (Below.vector _ (by below_side)) (fun x => ?_)
  | with_reducible refine Below.ite (fun _ => ?_) (fun _ => ?_)
  | with_reducible exact trivial
  | exact trivial)

macro "below_box" "[" ts:Lean.Parser.Tactic.simpLemma,* "]" : tactic => `(tactic| (
  simp only [$ts,*]
  below_simp
  repeat' below_step))

variable (B : Nat)
theorem below_stts : Stts.readDataA.Below B := by below_box [Stts.readDataA]
theorem below_ctts : Ctts.readDataA.Below B := by below_box [Ctts.readDataA]
theorem below_stsc : Stsc.readDataA.Below B := by below_box [Stsc.readDataA]
theorem below_stco : Stco.readDataA.Below B := by below_box [Stco.readDataA]
theorem below_co64 : Co64.readDataA.Below B := by below_box [Co64.readDataA]
theorem below_stss : Stss.readDataA.Below B := by below_box [Stss.readDataA]
theorem below_stsz : Stsz.readDataA.Below B := by below_box [Stsz.readDataA]
theorem below_sdtp : Sdtp.readDataA.Below B := by below_box [Sdtp.readDataA]
theorem below_sbgp (o) : (Sbgp.readDataA o).Below B := by below_box [Sbgp.readDataA]
theorem below_elst : Elst.readDataA.Below B := by below_box [Elst.readDataA]
theorem below_sidx : Sidx.readDataA.Below B := by below_box [Sidx.readDataA]
theorem below_tfra : Tfra.readDataA.Below B := by below_box [Tfra.readDataA]
theorem below_trun (o) : (Trun.readDataA o).Below B := by below_box [Trun.readDataA]
theorem below_av1C : Av1C.readDataA.Below B := by below_box [Av1C.readDataA]
theorem below_vpcC : VpcC.readDataA.Below B := by below_box [VpcC.readDataA]
theorem below_dOps : DOps.readDataA.Below B := by below_box [DOps.readDataA]
theorem below_data : Data.readDataA.Below B := by below_box [Data.readDataA]
theorem below_colr (o) : (Colr.readDataA o).Below B := by below_box [Colr.readDataA]
theorem below_ftyp : Ftyp.readDataA.Below B := by below_box [Ftyp.readDataA]
theorem below_opaque : Opaque.readDataA.Below B := by below_box [Opaque.readDataA]
theorem below_hdlr : Hdlr.readDataA.Below B := by below_box [Hdlr.readDataA]
theorem below_emsg : Emsg.readDataA.Below B := by below_box [Emsg.readDataA, Emsg.readTailA]
theorem below_parameterSet : AVCParameterSet.readDataA.Below B := by below_box [AVCParameterSet.readDataA]

theorem quickTime_le (v : BitVec 16) {o : Nat} (h : o ≤ B) :
    AudioSampleEntry.getLengthOfQuickTimeData v o < 2 ^ 32 ∨ AudioSampleEntry.getLengthOfQuickTimeData v o ≤ 8 * B := by
  unfold AudioSampleEntry.getLengthOfQuickTimeData
  split
  · left; decide
  · split
    · left; decide
    · right; omega

theorem below_audio (o) : (AudioSampleEntry.readDataA o).Below B := by
  simp only [AudioSampleEntry.readDataA]
  below_simp
  repeat' (first | with_reducible refine Below.bind (Below.vector _ (quickTime_le B _ ‹_›)) (fun x => ?_) | below_step)

theorem below_avcC (o) : (AvcC.readDataA o).Below B := by
  simp only [AvcC.readDataA]
  below_simp
  repeat' (first | with_reducible refine Below.bind (Below.readNA (below_parameterSet B) (by below_side)) (fun x => ?_) | below_step)

theorem below_startup (l w) : (StartupEntry.readDataA l w).Below B := by
  simp only [StartupEntry.readDataA]
  below_simp
  with_reducible refine Below.bind (Below.lift _ _) (fun x => ?_)
  with_reducible refine Below.bind (Below.lift _ _) (fun y => ?_)
  with_reducible refine Below.bind (Below.lift _ _) (fun z => ?_)
  with_reducible refine Below.bind (Below.vector _ (by below_side)) (fun u => ?_)
  refine Below.ite (fun _ => trivial) (fun _ => ?_)
  with_reducible refine Below.bind (Below.readN _ (Or.inl ?_)) (fun x => ?_)
  rotate_left
  · exact trivial
  have h1 := (x.2 * 8).isLt
  have h2 := (l * 8).isLt
  split <;> omega

theorem below_sgpd (o) : (Sgpd.readDataA o).Below B := by
  simp only [Sgpd.readDataA]
  below_simp
  with_reducible refine Below.bind (Below.lift _ _) (fun x => ?_)
  with_reducible refine Below.bind (Below.lift _ _) (fun y => ?_)
  with_reducible refine Below.bind (Below.lift _ _) (fun z => ?_)
  with_reducible refine Below.ite (fun _ => ?_) (fun _ => Below.ite (fun _ => ?_) (fun _ => ?_))
  · repeat' below_step
  · with_reducible refine Below.bind (Below.lift _ _) (fun x => ?_)
    with_reducible refine Below.bind (Below.readNA (below_startup B _ _) (by below_side)) (fun x => ?_)
    exact trivial
  · repeat' below_step

theorem below_opt {α : Type} {p : A (Nat × α)} (hp : p.Below B) (c : Bool) (o : α) : (A.opt c p o).Below B := by
  rw [A.opt]
  exact Below.ite (fun _ => hp) (fun _ => trivial)

theorem below_pssh (o) : (Pssh.readDataA o).Below B := by
  simp only [Pssh.readDataA]
  below_simp
  repeat' (first | with_reducible refine Below.bind (below_opt B ?_ _ _) (fun x => ?_) | below_step)

theorem below_info (mk : List Byte → Descriptor) : (readInfoA mk).Below B := by below_box [readInfoA]

theorem below_esFields (g) : (ESFields.readDataA g).Below B := by
  simp only [ESFields.readDataA]
  below_simp
  repeat' (first | with_reducible refine Below.bind (below_opt B ?_ _ _) (fun x => ?_) | below_step)

theorem below_esdsGo (g fb n) : ∀ r acc, (Esds.readGoA g fb n r acc).Below B := by
  induction n with
  | zero => intro r acc; trivial
  | succ fuel ih =>
    intro r acc
    rw [Esds.readGoA]
    below_simp
    with_reducible refine Below.bind (Below.lift _ _) (fun x => ?_)
    refine Below.ite (fun _ => trivial) (fun _ => ?_)
    with_reducible refine Below.bind (Below.lift _ _) (fun x => ?_)
    with_reducible refine Below.ite (fun _ => Below.bind (below_esFields B g) fun _ => ih _ _) (fun _ => ?_)
    with_reducible refine Below.ite (fun _ => Below.bind (Below.lift _ _) fun _ => ih _ _) (fun _ => ?_)
    with_reducible refine Below.ite (fun _ => Below.bind (below_info B _) fun _ => ih _ _) (fun _ => ?_)
    refine Below.ite (fun _ => Below.bind (below_info B _) fun _ => ih _ _) (fun _ => trivial)

theorem below_esds (g) : (Esds.readDataA g).Below B := by
  simp only [Esds.readDataA]
  below_simp
  with_reducible refine Below.bind (Below.lift _ _) (fun x => ?_)
  exact Below.bind (Below.lift _ _) (fun y => below_esdsGo B _ _ _ _ _)

theorem below_readData (env : Env) (t : BoxType) (wave : Bool) (k : Kind) : (BoxData.readDataA env t wave k).Below B := by
  have wrap : ∀ {β : Type} {p : A (Nat × β)} {f : β → BoxData}, p.Below B → (p.bind fun x => .ret (x.1, f x.2)).Below B :=
    fun hp => Below.bind hp fun a => trivial
  cases k <;> simp only [BoxData.readDataA] <;> first
    | with_reducible exact wrap (Below.lift _ _)
    | with_reducible exact wrap (below_stts B) | with_reducible exact wrap (below_ctts B) | with_reducible exact wrap (below_stsc B)
    | with_reducible exact wrap (below_stco B) | with_reducible exact wrap (below_co64 B) | with_reducible exact wrap (below_stss B)
    | with_reducible exact wrap (below_stsz B) | with_reducible exact wrap (below_sdtp B) | with_reducible exact wrap (below_sbgp B _)
    | with_reducible exact wrap (below_elst B) | with_reducible exact wrap (below_sidx B) | with_reducible exact wrap (below_tfra B)
    | with_reducible exact wrap (below_trun B _) | with_reducible exact wrap (below_audio B _) | with_reducible exact wrap (below_av1C B)
    | with_reducible exact wrap (below_vpcC B) | with_reducible exact wrap (below_dOps B) | with_reducible exact wrap (below_data B)
    | with_reducible exact wrap (below_colr B _) | with_reducible exact wrap (below_ftyp B) | with_reducible exact wrap (below_opaque B)
    | with_reducible exact wrap (below_emsg B) | with_reducible exact wrap (below_hdlr B) | with_reducible exact wrap (below_pssh B _)
    | with_reducible exact wrap (below_avcC B _) | with_reducible exact wrap (below_sgpd B _) | with_reducible exact wrap (below_esds B _)
    | exact trivial

end Mp4
