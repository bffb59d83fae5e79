import Verif.Lemmas.AllocRun

/-! # What the box classes request -/

namespace Mp4
open A

macro "gives_simp" : tactic => `(tactic| simp only [A.bind_eq, A.pure_eq, A.liftM_eq, A.monadLift_eq, A.monadLiftT_eq])

macro "gives_step" : tactic => `(tactic| first
  | with_reducible refine Asked.bind (Asked.lift _) (fun x n h => ?_)
  | with_reducible refine Asked.bind (Asked.readN _ _) (fun x n h => ?_)
  | with_reducible refine Asked.bind (Asked.vector _ _) (fun x n h => ?_)
  | with_reducible exact Asked.throw
  | with_reducible refine Asked.ite ?_ ?_
  | (with_reducible refine Asked.ret ?_; simp only [BoxData.elements]; omega))

macro "gives_box" "[" ts:Lean.Parser.Tactic.simpLemma,* "]" : tactic => `(tactic| (
  simp only [$ts,*]
  gives_simp
  repeat' gives_step))

theorem asked_stts : Asked Stts.readDataA fun x n => n ≤ (BoxData.stts x.2).elements := by gives_box [Stts.readDataA]
theorem asked_ctts : Asked Ctts.readDataA fun x n => n ≤ (BoxData.ctts x.2).elements := by gives_box [Ctts.readDataA]
theorem asked_stsc : Asked Stsc.readDataA fun x n => n ≤ (BoxData.stsc x.2).elements := by gives_box [Stsc.readDataA]
theorem asked_stco : Asked Stco.readDataA fun x n => n ≤ (BoxData.stco x.2).elements := by gives_box [Stco.readDataA]
theorem asked_co64 : Asked Co64.readDataA fun x n => n ≤ (BoxData.co64 x.2).elements := by gives_box [Co64.readDataA]
theorem asked_stss : Asked Stss.readDataA fun x n => n ≤ (BoxData.stss x.2).elements := by gives_box [Stss.readDataA]
theorem asked_stsz : Asked Stsz.readDataA fun x n => n ≤ (BoxData.stsz x.2).elements := by gives_box [Stsz.readDataA]
theorem asked_sdtp : Asked Sdtp.readDataA fun x n => n ≤ (BoxData.sdtp x.2).elements := by gives_box [Sdtp.readDataA]
theorem asked_sbgp (o) : Asked (Sbgp.readDataA o) fun x n => n ≤ (BoxData.sbgp x.2).elements := by gives_box [Sbgp.readDataA]
theorem asked_elst : Asked Elst.readDataA fun x n => n ≤ (BoxData.elst x.2).elements := by gives_box [Elst.readDataA]
theorem asked_sidx : Asked Sidx.readDataA fun x n => n ≤ (BoxData.sidx x.2).elements := by gives_box [Sidx.readDataA]
theorem asked_tfra : Asked Tfra.readDataA fun x n => n ≤ (BoxData.tfra x.2).elements := by gives_box [Tfra.readDataA]
theorem asked_trun (o) : Asked (Trun.readDataA o) fun x n => n ≤ (BoxData.trun x.2).elements := by gives_box [Trun.readDataA]
theorem asked_audio (o) : Asked (AudioSampleEntry.readDataA o) fun x n => n ≤ (BoxData.audio x.2).elements := by
  gives_box [AudioSampleEntry.readDataA]
theorem asked_av1C : Asked Av1C.readDataA fun x n => n ≤ (BoxData.av1C x.2).elements := by gives_box [Av1C.readDataA]
theorem asked_vpcC : Asked VpcC.readDataA fun x n => n ≤ (BoxData.vpcC x.2).elements := by gives_box [VpcC.readDataA]
theorem asked_dOps : Asked DOps.readDataA fun x n => n ≤ (BoxData.dOps x.2).elements := by gives_box [DOps.readDataA]
theorem asked_data : Asked Data.readDataA fun x n => n ≤ (BoxData.data x.2).elements := by gives_box [Data.readDataA]
theorem asked_colr (o) : Asked (Colr.readDataA o) fun x n => n ≤ (BoxData.colr x.2).elements := by gives_box [Colr.readDataA]
theorem asked_ftyp : Asked Ftyp.readDataA fun x n => n ≤ (BoxData.ftyp x.2).elements := by gives_box [Ftyp.readDataA]
theorem asked_opaque : Asked Opaque.readDataA fun x n => n ≤ (BoxData.opaq x.2).elements := by gives_box [Opaque.readDataA]
theorem asked_hdlr : Asked Hdlr.readDataA fun x n => n ≤ (BoxData.hdlr x.2).elements := by gives_box [Hdlr.readDataA]
theorem asked_emsg : Asked Emsg.readDataA fun x n => n ≤ (BoxData.emsg x.2).elements := by gives_box [Emsg.readDataA, Emsg.readTailA]

theorem asked_parameterSet : Asked AVCParameterSet.readDataA fun x n => 1 + n ≤ 1 + x.2.length := by gives_box [AVCParameterSet.readDataA]

theorem asked_avcC (o) : Asked (AvcC.readDataA o) fun x n => n ≤ (BoxData.avcC x.2).elements := by
  simp only [AvcC.readDataA]
  gives_simp
  iterate 8 (with_reducible refine Asked.bind (Asked.lift _) (fun x n h => ?_); subst h)
  with_reducible refine Asked.bind (Asked.readNA (F := fun nal => 1 + nal.length) asked_parameterSet _) (fun seq n1 h1 => ?_)
  with_reducible refine Asked.bind (Asked.lift _) (fun x n h => ?_)
  subst h
  with_reducible refine Asked.bind (Asked.readNA (F := fun nal => 1 + nal.length) asked_parameterSet _) (fun pic n2 h2 => ?_)
  have two : ∀ c : Nat, 0 + (0 + (0 + (0 + (0 + (0 + (0 + (0 + (n1 + (0 + (n2 + 0)))))))))) ≤
      (seq.2.map fun nal => 1 + nal.length).sum + (pic.2.map fun nal => 1 + nal.length).sum + c := by
    intro c
    simp only [Nat.zero_add, Nat.add_zero]
    exact Nat.le_trans (Nat.add_le_add h1 h2) (Nat.le_add_right _ _)
  with_reducible refine Asked.ite (Asked.ret ?_) ?_
  · exact two _
  with_reducible refine Asked.bind (Asked.lift _) (fun x n h => ?_)
  subst h
  with_reducible refine Asked.ite (Asked.ret ?_) ?_
  · exact two _
  iterate 7 (with_reducible refine Asked.bind (Asked.lift _) (fun x n h => ?_); subst h)
  with_reducible refine Asked.bind (Asked.readNA (F := fun nal => 1 + nal.length) asked_parameterSet _) (fun ext n3 h3 => ?_)
  with_reducible refine Asked.ret ?_
  simp only [Nat.zero_add, Nat.add_zero]
  rw [← Nat.add_assoc]
  exact Nat.add_le_add (Nat.add_le_add h1 h2) h3

theorem asked_startup (l w) : Asked (StartupEntry.readDataA l w) fun x n => 1 + n ≤ 1 + x.2.sample_offsets.length + x.2.opts.length := by
  gives_box [StartupEntry.readDataA]

theorem asked_sgpd (o) : Asked (Sgpd.readDataA o) fun x n => n ≤ (BoxData.sgpd x.2).elements := by
  simp only [Sgpd.readDataA]
  gives_simp
  refine Asked.bind (Asked.lift _) (fun x n h => ?_)
  refine Asked.bind (Asked.lift _) (fun x n h => ?_)
  refine Asked.bind (Asked.lift _) (fun x n h => ?_)
  refine Asked.ite ?_ (Asked.ite ?_ ?_)
  · repeat' gives_step
  · refine Asked.bind (Asked.lift _) (fun x n h => ?_)
    refine Asked.bind (Asked.readNA (F := fun e => 1 + e.sample_offsets.length + e.opts.length) (asked_startup _ _) _) (fun x n h => ?_)
    gives_step
  · repeat' gives_step

theorem asked_pssh (o) : Asked (Pssh.readDataA o) fun x n => n ≤ (BoxData.pssh x.2).elements := by
  have h : ∀ c, Asked (A.opt c (do
      let (s0, kid_count) ← read_uint 32
      let (s1, kids) ← A.readN (read_arr 8 16) kid_count.toNat
      pure (s0 + s1, kids)) o.kids : A (Nat × List (Vector Byte 16))) fun x n => n ≤ x.2.length := by
    intro c
    unfold A.opt
    gives_simp
    repeat' gives_step
  simp only [A.bind_eq, A.pure_eq, A.liftM_eq, A.monadLift_eq, A.monadLiftT_eq] at h
  simp only [Pssh.readDataA]
  gives_simp
  repeat' (first | with_reducible refine Asked.bind (h _) (fun x n h => ?_) | gives_step)

theorem asked_info (mk : List Byte → Descriptor) (hm : ∀ l, (mk l).elements = l.length) :
    Asked (readInfoA mk) fun x n => n ≤ x.2.elements := by
  simp only [readInfoA]
  gives_simp
  refine Asked.bind (Asked.lift _) (fun x n h => ?_)
  refine Asked.bind (Asked.vector _ _) (fun x n h => ?_)
  refine Asked.ret ?_
  dsimp only
  rw [hm]
  omega

theorem asked_esFields (g) : Asked (ESFields.readDataA g) fun x n => n ≤ x.2.elements := by
  have h : ∀ c, Asked (A.opt c (do
      let (s0, n) ← read_uint 8
      let (s1, url) ← A.read_vector_uint 8 n.toNat
      pure (s0 + s1, url)) [] : A (Nat × List Byte)) fun x n => n ≤ x.2.length := by
    intro c
    unfold A.opt
    gives_simp
    repeat' gives_step
  simp only [A.bind_eq, A.pure_eq, A.liftM_eq, A.monadLift_eq, A.monadLiftT_eq] at h
  simp only [ESFields.readDataA]
  gives_simp
  repeat' (first | with_reducible refine Asked.bind (h _) (fun x n h => ?_) | gives_step | (refine Asked.ret ?_; simp only [Descriptor.elements]; omega))

/-- the elements of the descriptors -/
def descElements (ds : List Descriptor) : Nat := (ds.map fun d => 1 + d.elements).sum

theorem descElements_snoc (l : List Descriptor) (d : Descriptor) : descElements (l ++ [d]) = descElements l + 1 + d.elements := by
  simp [descElements]
  omega

theorem asked_esdsGo (g fb n) : ∀ r acc, Asked (Esds.readGoA g fb n r acc) fun x n => n + descElements acc ≤ descElements x.2.descriptors := by
  induction n with
  | zero => intro r acc; exact Asked.ret (by dsimp only; omega)
  | succ fuel ih =>
    intro r acc
    rw [Esds.readGoA]
    gives_simp
    refine Asked.bind (Asked.lift _) (fun x n h => ?_)
    refine Asked.ite (Asked.ret (by dsimp only; omega)) ?_
    refine Asked.bind (Asked.lift _) (fun y m h2 => ?_)
    have go : ∀ {p : A (Nat × Descriptor)}, Asked p (fun x n => n ≤ x.2.elements) →
        Asked (p.bind fun z => Esds.readGoA g fb fuel (r + y.1 + z.1) (acc ++ [z.2]))
          (fun b k => n + (m + k) + descElements acc ≤ descElements b.2.descriptors) := by
      intro p hp
      refine Asked.bind hp fun z k h3 => ?_
      refine (ih _ _).mono fun b k' h4 => ?_
      rw [descElements_snoc] at h4
      omega
    refine Asked.ite (go (asked_esFields g)) (Asked.ite (go ((Asked.lift _).mono fun x n h => by omega))
      (Asked.ite (go (asked_info _ fun _ => rfl)) (Asked.ite (go (asked_info _ fun _ => rfl)) ?_)))
    exact Asked.ret (by dsimp only; omega)

theorem asked_esds (g) : Asked (Esds.readDataA g) fun x n => n ≤ (BoxData.esds x.2).elements := by
  simp only [Esds.readDataA]
  gives_simp
  refine Asked.bind (Asked.lift _) (fun x n h => ?_)
  refine Asked.bind (Asked.lift _) (fun y m h2 => ?_)
  refine (asked_esdsGo _ _ _ _ _).mono fun b k h3 => ?_
  show n + (m + k) ≤ descElements b.2.descriptors
  omega

/-- If `readData` ends normally, the elements requested are at most the elements the object holds. -/
theorem asked_readData (env : Env) (t : BoxType) (wave : Bool) (k : Kind) : Asked (BoxData.readDataA env t wave k) fun x n => n ≤ x.2.elements := by
  have wrap : ∀ {β : Type} {p : A (Nat × β)} {f : β → BoxData}, Asked p (fun x n => n ≤ (f x.2).elements) →
      Asked (p.bind fun x => .ret (x.1, f x.2)) fun x n => n ≤ x.2.elements := fun hp => Asked.bind hp fun a n h => Asked.ret (by dsimp only; omega)
  have wrap0 : ∀ {β : Type} {p : R (Nat × β)} {f : β → BoxData},
      Asked ((A.lift p).bind fun x => .ret (x.1, f x.2)) fun x n => n ≤ x.2.elements := fun {β p f} =>
    Asked.bind (Asked.lift p) fun a n h => Asked.ret (by omega)
  cases k <;> simp only [BoxData.readDataA] <;> first
    | with_reducible exact wrap0
    | with_reducible exact wrap asked_stts | with_reducible exact wrap asked_ctts | with_reducible exact wrap asked_stsc | with_reducible exact wrap asked_stco | with_reducible exact wrap asked_co64
    | with_reducible exact wrap asked_stss | with_reducible exact wrap asked_stsz | with_reducible exact wrap asked_sdtp | with_reducible exact wrap (asked_sbgp _) | with_reducible exact wrap asked_elst
    | with_reducible exact wrap asked_sidx | with_reducible exact wrap asked_tfra | with_reducible exact wrap (asked_trun _) | with_reducible exact wrap (asked_audio _) | with_reducible exact wrap asked_av1C
    | with_reducible exact wrap asked_vpcC | with_reducible exact wrap asked_dOps | with_reducible exact wrap asked_data | with_reducible exact wrap (asked_colr _) | with_reducible exact wrap asked_ftyp
    | with_reducible exact wrap asked_opaque | with_reducible exact wrap asked_emsg | with_reducible exact wrap asked_hdlr | with_reducible exact wrap (asked_pssh _) | with_reducible exact wrap (asked_avcC _)
    | with_reducible exact wrap (asked_sgpd _) | with_reducible exact wrap (asked_esds _)
    | exact Asked.ret (Nat.zero_le _)

end Mp4
