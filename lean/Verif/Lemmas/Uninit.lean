import Verif.Spec.Uninit
import Verif.Lemmas.NeededAlst
import Verif.Lemmas.Concat
import Verif.Lemmas.Lossless

/-! # Reading with different contents of uninitialised members -/

namespace Mp4
open R Spec

/-- Both end with the same exception, or both go on from the same state with related results. -/
def SameEnd {α β : Type} (Q : α → β → Prop) : Except Err (α × List Bool) → Except Err (β × List Bool) → Prop
  | .error e, .error e' => e = e'
  | .ok (a, s), .ok (b, t) => Q a b ∧ s = t
  | _, _ => False

/-- Two programs that do the same with related results. -/
def Blind {α β : Type} (Q : α → β → Prop) (p : R α) (q : R β) : Prop := ∀ d s, SameEnd Q (p.run d s) (q.run d s)

variable {α β γ δ : Type}

theorem Blind.ret {Q : α → β → Prop} {a : α} {b : β} (h : Q a b) : Blind Q (.ret a) (.ret b) := fun _ _ => ⟨h, rfl⟩

theorem Blind.throw {Q : α → β → Prop} {e : Err} : Blind Q (.throw e) (.throw e) := fun _ _ => rfl

theorem Blind.bind {Q : α → β → Prop} {S : γ → δ → Prop} {p : R α} {q : R β} {f : α → R γ} {g : β → R δ} (h : Blind Q p q)
    (k : ∀ a b, Q a b → Blind S (f a) (g b)) : Blind S (p.bind f) (q.bind g) := by
  intro d s
  rw [run_bind, run_bind]
  have := h d s
  revert this
  rcases p.run d s with e | ⟨a, s1⟩ <;> rcases q.run d s with e' | ⟨b, s2⟩ <;> intro this
  · exact this
  · exact this.elim
  · exact this.elim
  · obtain ⟨h1, h2⟩ := this
    subst h2
    exact k a b h1 d s1

theorem Blind.refl {Q : α → α → Prop} (p : R α) (h : ∀ a, Q a a) : Blind Q p p := by
  intro d s
  rcases p.run d s with e | ⟨a, s1⟩
  · rfl
  · exact ⟨h a, rfl⟩

theorem Blind.same {S : γ → δ → Prop} (p : R α) {f : α → R γ} {g : α → R δ} (k : ∀ a, Blind S (f a) (g a)) :
    Blind S (p.bind f) (p.bind g) :=
  Blind.bind (Q := Eq) (Blind.refl p fun _ => rfl) fun a b h => h ▸ k a

/-- Same count, and the same value where the field is there. -/
def OptEq (c : Bool) (a b : Nat × α) : Prop := a.1 = b.1 ∧ (c = true → a.2 = b.2)

theorem Blind.opt (c : Bool) (p : R (Nat × α)) (x y : α) : Blind (OptEq c) (R.opt c p x) (R.opt c p y) := by
  cases c with
  | true => exact Blind.refl p fun _ => ⟨rfl, fun _ => rfl⟩
  | false => exact Blind.ret ⟨rfl, fun h => by cases h⟩

/-- Same count, contents alike. -/
def Out (t : BoxType) (mk : α → BoxData) (a b : Nat × α) : Prop := a.1 = b.1 ∧ Alike t (mk a.2) (mk b.2)

theorem Alike.of_not_wave {t : BoxType} {d e : BoxData} (h : d.toStringOnlyData t = e.toStringOnlyData t) (hd : underWave d = underWave e)
    (hw : d.writeData = e.writeData) (hs : d.getDataSize = e.getDataSize) : Alike t d e := ⟨h, hd, fun _ => hw, fun _ => hs⟩

theorem Alike.refl (t : BoxType) (d : BoxData) : Alike t d d := ⟨rfl, rfl, fun _ => rfl, fun _ => rfl⟩

/-- A class whose constructor initialises everything. -/
theorem out_same {t : BoxType} {mk : α → BoxData} (p : R (Nat × α)) : Blind (Out t mk) p p :=
  Blind.refl p fun a => ⟨rfl, Alike.refl t (mk a.2)⟩

theorem out_ret {t : BoxType} {mk : α → BoxData} {n m : Nat} {a b : α} (hn : n = m)
    (h : (mk a).toStringOnlyData t = (mk b).toStringOnlyData t) (hd : underWave (mk a) = underWave (mk b))
    (hw : (mk a).writeData = (mk b).writeData) (hs : (mk a).getDataSize = (mk b).getDataSize) :
    Blind (Out t mk) (.ret (n, a)) (.ret (m, b)) := Blind.ret ⟨hn, Alike.of_not_wave h hd hw hs⟩

theorem if_arg {c : Bool} {x y : α} (f : α → β) (z : β) (h : c = true → x = y) :
    (if c then f x else z) = (if c then f y else z) := by
  cases c with
  | true => rw [h rfl]
  | false => rfl

theorem opt_arg {c : Bool} {x y : α} (f : α → W Nat) (h : c = true → x = y) : W.opt c (f x) = W.opt c (f y) := by
  cases c with
  | true => rw [h rfl]
  | false => rfl

theorem Sbgp.blind (t : BoxType) (x y : BitVec 32) : Blind (Out t .sbgp) (Sbgp.readData x) (Sbgp.readData y) := by
  unfold Sbgp.readData
  simp only [bind_eq, pure_eq]
  refine Blind.same _ fun ⟨_, fb⟩ => ?_
  refine Blind.same _ fun ⟨_, g⟩ => ?_
  refine Blind.bind (Blind.opt _ _ _ _) fun ⟨n, a⟩ ⟨m, b⟩ ⟨h1, h2⟩ => ?_
  refine Blind.same _ fun ⟨_, size⟩ => ?_
  refine Blind.same _ fun ⟨_, es⟩ => ?_
  dsimp only at h1 h2
  refine out_ret (by rw [h1]) ?_ rfl ?_ rfl
  · show Except.ok (Sbgp.toStringOnlyData _) = Except.ok (Sbgp.toStringOnlyData _)
    unfold Sbgp.toStringOnlyData
    by_cases hv : fb.version = 0#8
    · simp [hv]
    · rw [h2 (by simpa using hv)]
  · show Sbgp.writeData _ = Sbgp.writeData _
    unfold Sbgp.writeData
    by_cases hv : fb.version = 0#8
    · simp [hv, W.opt]
    · rw [h2 (by simpa using hv)]

theorem Tfhd.blind (t : BoxType) (x y : Tfhd) : Blind (Out t .tfhd) (Tfhd.readData x) (Tfhd.readData y) := by
  unfold Tfhd.readData
  simp only [bind_eq, pure_eq]
  refine Blind.same _ fun ⟨_, fb⟩ => ?_
  refine Blind.same _ fun ⟨_, id⟩ => ?_
  refine Blind.bind (Blind.opt _ _ _ _) fun ⟨n1, a1⟩ ⟨m1, b1⟩ ⟨h1, k1⟩ => ?_
  refine Blind.bind (Blind.opt _ _ _ _) fun ⟨n2, a2⟩ ⟨m2, b2⟩ ⟨h2, k2⟩ => ?_
  refine Blind.bind (Blind.opt _ _ _ _) fun ⟨n3, a3⟩ ⟨m3, b3⟩ ⟨h3, k3⟩ => ?_
  refine Blind.bind (Blind.opt _ _ _ _) fun ⟨n4, a4⟩ ⟨m4, b4⟩ ⟨h4, k4⟩ => ?_
  refine Blind.bind (Blind.opt _ _ _ _) fun ⟨n5, a5⟩ ⟨m5, b5⟩ ⟨h5, k5⟩ => ?_
  dsimp only at h1 h2 h3 h4 h5 k1 k2 k3 k4 k5
  refine out_ret (by rw [h1, h2, h3, h4, h5]) ?_ rfl ?_ rfl
  · show Except.ok (Tfhd.toStringOnlyData _) = Except.ok (Tfhd.toStringOnlyData _)
    unfold Tfhd.toStringOnlyData
    dsimp only
    rw [if_arg (fun v => _ ++ format fmt!" BaseDataOffset={}" [argU v]) _ k1,
      if_arg (fun v => _ ++ format fmt!" SampleDescriptionIndex={}" [argU v]) _ k2,
      if_arg (fun v => _ ++ format fmt!" DefaultSampleDuration={}" [argU v]) _ k3,
      if_arg (fun v => _ ++ format fmt!" DefaultSampleSize={}" [argU v]) _ k4,
      if_arg (fun v => _ ++ format fmt!" DefaultSampleFlags={:#x}" [argU v]) _ k5]
  · show Tfhd.writeData _ = Tfhd.writeData _
    unfold Tfhd.writeData
    dsimp only
    rw [opt_arg (fun v => write_uint v) k1, opt_arg (fun v => write_uint v) k2, opt_arg (fun v => write_uint v) k3,
      opt_arg (fun v => write_uint v) k4, opt_arg (fun v => write_uint v) k5]

theorem Trun.blind (t : BoxType) (x y : Trun) : Blind (Out t .trun) (Trun.readData x) (Trun.readData y) := by
  unfold Trun.readData
  simp only [bind_eq, pure_eq]
  refine Blind.same _ fun ⟨_, fb⟩ => ?_
  refine Blind.same _ fun ⟨_, id⟩ => ?_
  refine Blind.bind (Blind.opt _ _ _ _) fun ⟨n1, a1⟩ ⟨m1, b1⟩ ⟨h1, k1⟩ => ?_
  refine Blind.bind (Blind.opt _ _ _ _) fun ⟨n2, a2⟩ ⟨m2, b2⟩ ⟨h2, k2⟩ => ?_
  refine Blind.same _ fun ⟨_, es⟩ => ?_
  dsimp only at h1 h2 k1 k2
  refine out_ret (by rw [h1, h2]) ?_ rfl ?_ rfl
  · show Except.ok (Trun.toStringOnlyData _) = Except.ok (Trun.toStringOnlyData _)
    unfold Trun.toStringOnlyData
    dsimp only
    rw [if_arg (fun v => _ ++ format fmt!" DataOffset={}" [argI v]) _ k1,
      if_arg (fun v => _ ++ format fmt!" FirstSampleFlags={:#x}" [argU v]) _ k2]
  · show Trun.writeData _ = Trun.writeData _
    unfold Trun.writeData
    dsimp only
    rw [opt_arg (fun v => write_int v) k1, opt_arg (fun v => write_uint v) k2]

theorem Url.blind (t : BoxType) (x y : Url) (hx : x.location = []) (hy : y.location = []) :
    Blind (Out t .url) (Url.readData x) (Url.readData y) := by
  unfold Url.readData
  rw [hx, hy]
  exact out_same _

theorem Urn.blind (t : BoxType) (x y : Urn) (hx : x.name = [] ∧ x.location = []) (hy : y.name = [] ∧ y.location = []) :
    Blind (Out t .urn) (Urn.readData x) (Urn.readData y) := by
  unfold Urn.readData
  rw [hx.1, hy.1, hx.2, hy.2]
  exact out_same _

theorem Pssh.blind (t : BoxType) (x y : Pssh) (hx : x.kids = []) (hy : y.kids = []) :
    Blind (Out t .pssh) (Pssh.readData x) (Pssh.readData y) := by
  unfold Pssh.readData
  rw [hx, hy]
  exact out_same _

theorem Colr.blind (t : BoxType) (x y : Colr) : Blind (Out t .colr) (Colr.readData x) (Colr.readData y) := by
  unfold Colr.readData
  simp only [bind_eq, pure_eq]
  refine Blind.same _ fun ⟨_, c⟩ => ?_
  dsimp only
  split
  · next h =>
    refine Blind.same _ fun ⟨_, _⟩ => ?_
    refine Blind.same _ fun ⟨_, _⟩ => ?_
    refine Blind.same _ fun ⟨_, _⟩ => ?_
    refine Blind.same _ fun ⟨_, _⟩ => ?_
    refine Blind.same _ fun ⟨_, _⟩ => ?_
    refine out_ret rfl ?_ rfl ?_ ?_
    · show Except.ok (Colr.toStringOnlyData _) = Except.ok (Colr.toStringOnlyData _)
      have : c = ⟨0x6e#8, 0x63#8, 0x6c#8, 0x78#8⟩ := by simpa [Colr.isNclx] using h
      unfold Colr.toStringOnlyData
      simp only [this, if_true]
    · show Colr.writeData _ = Colr.writeData _
      simp only [Colr.writeData, h, if_true]
    · show Colr.getDataSize _ = Colr.getDataSize _
      simp only [Colr.getDataSize, h, if_true]
  · next h =>
    have h' : ¬ c = ⟨0x6e#8, 0x63#8, 0x6c#8, 0x78#8⟩ := by simpa [Colr.isNclx] using h
    refine Blind.same _ fun n => ?_
    split
    · next k =>
      have k' : c = ⟨0x72#8, 0x49#8, 0x43#8, 0x43#8⟩ ∨ c = ⟨0x70#8, 0x72#8, 0x6f#8, 0x66#8⟩ := by simpa [Colr.isProfile] using k
      refine Blind.same _ fun ⟨_, _⟩ => ?_
      refine out_ret rfl ?_ rfl ?_ ?_
      · show Except.ok (Colr.toStringOnlyData _) = Except.ok (Colr.toStringOnlyData _)
        unfold Colr.toStringOnlyData
        simp only [h', k', if_true, if_false]
      · show Colr.writeData _ = Colr.writeData _
        simp only [Colr.writeData, h, k, if_true, if_false, Bool.false_eq_true]
      · show Colr.getDataSize _ = Colr.getDataSize _
        simp only [Colr.getDataSize, h, k, if_true, if_false, Bool.false_eq_true]
    · next k =>
      have k' : ¬ (c = ⟨0x72#8, 0x49#8, 0x43#8, 0x43#8⟩ ∨ c = ⟨0x70#8, 0x72#8, 0x6f#8, 0x66#8⟩) := by simpa [Colr.isProfile] using k
      refine Blind.same _ fun ⟨_, _⟩ => ?_
      refine out_ret rfl ?_ rfl ?_ ?_
      · show Except.ok (Colr.toStringOnlyData _) = Except.ok (Colr.toStringOnlyData _)
        unfold Colr.toStringOnlyData
        simp only [h', k', if_false]
      · show Colr.writeData _ = Colr.writeData _
        simp only [Colr.writeData, h, k, if_false, Bool.false_eq_true]
      · show Colr.getDataSize _ = Colr.getDataSize _
        simp only [Colr.getDataSize, h, k, if_false, Bool.false_eq_true]

theorem AvcC.blind (t : BoxType) (x y : AvcC) : Blind (Out t .avcC) (AvcC.readData x) (AvcC.readData y) := by
  unfold AvcC.readData
  simp only [bind_eq, pure_eq]
  iterate 11 refine Blind.same _ fun ⟨_, _⟩ => ?_
  dsimp only
  split
  · refine out_ret rfl ?_ rfl ?_ ?_
    · show Except.ok (AvcC.toStringOnlyData _) = Except.ok (AvcC.toStringOnlyData _)
      simp only [AvcC.toStringOnlyData, Bool.and_false, Bool.false_eq_true, if_false]
    · show AvcC.writeData _ = AvcC.writeData _
      simp only [AvcC.writeData, Bool.not_false, if_true]
    · simp only [BoxData.getDataSize, AvcC.getDataSize, Bool.not_false, if_true]
  · refine Blind.same _ fun n => ?_
    split
    · refine out_ret rfl ?_ rfl ?_ ?_
      · show Except.ok (AvcC.toStringOnlyData _) = Except.ok (AvcC.toStringOnlyData _)
        simp only [AvcC.toStringOnlyData, Bool.and_false, Bool.false_eq_true, if_false]
      · show AvcC.writeData _ = AvcC.writeData _
        simp only [AvcC.writeData, Bool.not_false, if_true]
      · simp only [BoxData.getDataSize, AvcC.getDataSize, Bool.not_false, if_true]
    · exact out_same _

theorem Audio.blind (t : BoxType) (x y : AudioSampleEntry) (h : x.type = y.type) (hw : x.under_wave = y.under_wave)
    (hq : x.quick_time_data = y.quick_time_data) :
    Blind (Out t .audio) (AudioSampleEntry.readData x) (AudioSampleEntry.readData y) := by
  unfold AudioSampleEntry.readData
  simp only [bind_eq, pure_eq]
  rw [h, hw]
  split
  · next u =>
    refine Blind.same _ fun n => ?_
    refine Blind.same _ fun ⟨_, _⟩ => ?_
    refine Blind.ret ⟨rfl, ?_, ?_, ?_, ?_⟩
    · show Except.ok (AudioSampleEntry.toStringOnlyData _) = Except.ok (AudioSampleEntry.toStringOnlyData _)
      simp only [AudioSampleEntry.toStringOnlyData, u, if_true]
    · rfl
    · intro k
      have k : y.under_wave = false := k
      rw [u] at k
      cases k
    · intro k
      have k : y.under_wave = false := k
      rw [u] at k
      cases k
  · next u =>
    have hu : y.under_wave = false := by simpa using u
    iterate 8 refine Blind.same _ fun ⟨_, _⟩ => ?_
    dsimp only
    split
    · refine out_ret rfl ?_ rfl ?_ ?_
      · show Except.ok (AudioSampleEntry.toStringOnlyData _) = Except.ok (AudioSampleEntry.toStringOnlyData _)
        simp only [AudioSampleEntry.toStringOnlyData, hu, Bool.not_false, if_true, Bool.false_eq_true, if_false]
      · show AudioSampleEntry.writeData _ = AudioSampleEntry.writeData _
        simp only [AudioSampleEntry.writeData, hq]
      · simp only [BoxData.getDataSize, AudioSampleEntry.getDataSize, Bool.not_false, if_true]
    · refine Blind.same _ fun n => ?_
      split
      · refine out_ret rfl ?_ rfl ?_ ?_
        · show Except.ok (AudioSampleEntry.toStringOnlyData _) = Except.ok (AudioSampleEntry.toStringOnlyData _)
          simp only [AudioSampleEntry.toStringOnlyData, hu, Bool.not_false, if_true, Bool.false_eq_true, if_false]
        · show AudioSampleEntry.writeData _ = AudioSampleEntry.writeData _
          simp only [AudioSampleEntry.writeData, hq]
        · simp only [BoxData.getDataSize, AudioSampleEntry.getDataSize, Bool.not_false, if_true]
      · refine Blind.same _ fun ⟨_, _⟩ => ?_
        refine out_ret rfl ?_ rfl ?_ ?_
        · show Except.ok (AudioSampleEntry.toStringOnlyData _) = Except.ok (AudioSampleEntry.toStringOnlyData _)
          simp only [AudioSampleEntry.toStringOnlyData, hu]
        · rfl
        · rfl

/-! ### `esds` -/

/-- Two descriptors that cannot be told apart. -/
def DescAlike (p q : Descriptor) : Prop := p.toText = q.toText ∧ p.writeData = q.writeData ∧ p.getSize = q.getSize

/-- Two lists of descriptors that cannot be told apart. -/
def DescsAlike (ps qs : List Descriptor) : Prop :=
  ps.map Descriptor.toText = qs.map Descriptor.toText ∧ ps.map Descriptor.writeData = qs.map Descriptor.writeData ∧
    ps.map Descriptor.getSize = qs.map Descriptor.getSize

theorem DescsAlike.snoc {ps qs : List Descriptor} {p q : Descriptor} (h : DescsAlike ps qs) (k : DescAlike p q) :
    DescsAlike (ps ++ [p]) (qs ++ [q]) := by
  obtain ⟨h1, h2, h3⟩ := h
  obtain ⟨k1, k2, k3⟩ := k
  refine ⟨?_, ?_, ?_⟩ <;> simp only [List.map_append, List.map_cons, List.map_nil, h1, h2, h3, k1, k2, k3]

theorem writeList_map {α β : Type} (f : α → W Nat) (g : β → W Nat) : ∀ (l : List α) (m : List β), l.map f = m.map g → writeList f l = writeList g m
  | [], [], _ => rfl
  | [], _ :: _, h => by cases h
  | _ :: _, [], h => by cases h
  | a :: l, b :: m, h => by
    rw [List.map_cons, List.map_cons] at h
    injection h with h1 h2
    rw [writeList, writeList, h1, writeList_map f g l m h2]

theorem DescsAlike.esds {t : BoxType} {fb : FullBox} {ps qs : List Descriptor} (h : DescsAlike ps qs) :
    Alike t (.esds ⟨fb, ps⟩) (.esds ⟨fb, qs⟩) := by
  obtain ⟨h1, h2, h3⟩ := h
  refine Alike.of_not_wave ?_ rfl ?_ ?_
  · show Except.ok (Esds.toStringOnlyData _) = Except.ok (Esds.toStringOnlyData _)
    have : ∀ l : List Descriptor, joinMap Descriptor.toText l b!", " = .join ((l.map Descriptor.toText).map .str) b!", " := by
      intro l
      rw [joinMap, List.map_map]
      rfl
    rw [Esds.toStringOnlyData, Esds.toStringOnlyData, this, this, h1]
  · show Esds.writeData _ = Esds.writeData _
    rw [Esds.writeData, Esds.writeData, writeList_map _ _ _ _ h2]
  · show Esds.getDataSize _ = Esds.getDataSize _
    rw [Esds.getDataSize, Esds.getDataSize, h3]

/-- Same count, descriptors alike. -/
def DescOut (a b : Nat × Descriptor) : Prop := a.1 = b.1 ∧ DescAlike a.2 b.2

theorem desc_same (p : R (Nat × Descriptor)) : Blind DescOut p p := Blind.refl p fun _ => ⟨rfl, rfl, rfl, rfl⟩

theorem ESFields.blind (x y : ESJunk) : Blind DescOut (ESFields.readData x) (ESFields.readData y) := by
  unfold ESFields.readData
  simp only [bind_eq, pure_eq]
  refine Blind.same _ fun ⟨_, size⟩ => ?_
  refine Blind.same _ fun ⟨_, id⟩ => ?_
  refine Blind.same _ fun ⟨_, sd⟩ => ?_
  refine Blind.same _ fun ⟨_, uf⟩ => ?_
  refine Blind.same _ fun ⟨_, ocr⟩ => ?_
  refine Blind.same _ fun ⟨_, pr⟩ => ?_
  refine Blind.bind (Blind.opt _ _ _ _) fun ⟨n1, a1⟩ ⟨m1, b1⟩ ⟨h1, k1⟩ => ?_
  refine Blind.same _ fun ⟨_, us⟩ => ?_
  refine Blind.bind (Blind.opt _ _ _ _) fun ⟨n2, a2⟩ ⟨m2, b2⟩ ⟨h2, k2⟩ => ?_
  dsimp only at h1 h2 k1 k2
  refine Blind.ret ⟨by rw [h1, h2], ?_, ?_, rfl⟩
  · simp only [Descriptor.toText]
    rw [if_arg (fun v => _ ++ format fmt!" DependsOnESID={}" [argU v]) _ k1, if_arg (fun v => _ ++ format fmt!" OCRESID={}" [argU v]) _ k2]
    rfl
  · simp only [Descriptor.writeData]
    rw [opt_arg (fun v => write_uint v) k1, opt_arg (fun v => write_uint v) k2]
    rfl

theorem Esds.go_blind (t : BoxType) (x y : ESJunk) (fb : FullBox) : ∀ fuel n ps qs, DescsAlike ps qs →
    Blind (Out t .esds) (Esds.readGo x fb fuel n ps) (Esds.readGo y fb fuel n qs) := by
  intro fuel
  induction fuel with
  | zero => exact fun n ps qs h => Blind.ret ⟨rfl, h.esds⟩
  | succ fuel ih =>
    intro n ps qs h
    rw [Esds.readGo, Esds.readGo]
    simp only [bind_eq, pure_eq]
    refine Blind.same _ fun k => ?_
    split
    · exact Blind.ret ⟨rfl, h.esds⟩
    · refine Blind.same _ fun ⟨_, tag⟩ => ?_
      dsimp only
      split
      · exact Blind.bind (ESFields.blind x y) fun ⟨n1, a1⟩ ⟨m1, b1⟩ ⟨h1, k1⟩ => by
          dsimp only at h1 k1 ⊢
          rw [h1]
          exact ih _ _ _ (h.snoc k1)
      · split
        · exact Blind.bind (desc_same _) fun ⟨n1, a1⟩ ⟨m1, b1⟩ ⟨h1, k1⟩ => by
            dsimp only at h1 k1 ⊢
            rw [h1]
            exact ih _ _ _ (h.snoc k1)
        · split
          · exact Blind.bind (desc_same _) fun ⟨n1, a1⟩ ⟨m1, b1⟩ ⟨h1, k1⟩ => by
              dsimp only at h1 k1 ⊢
              rw [h1]
              exact ih _ _ _ (h.snoc k1)
          · split
            · exact Blind.bind (desc_same _) fun ⟨n1, a1⟩ ⟨m1, b1⟩ ⟨h1, k1⟩ => by
                dsimp only at h1 k1 ⊢
                rw [h1]
                exact ih _ _ _ (h.snoc k1)
            · exact Blind.ret ⟨rfl, h.esds⟩

theorem Esds.blind (t : BoxType) (x y : ESJunk) : Blind (Out t .esds) (Esds.readData x) (Esds.readData y) := by
  unfold Esds.readData
  simp only [bind_eq, pure_eq]
  refine Blind.same _ fun ⟨_, fb⟩ => ?_
  refine Blind.same _ fun n => ?_
  exact Esds.go_blind t x y fb _ _ _ _ ⟨rfl, rfl, rfl⟩

/-! ### `sgpd` -/

/-- Two `sgpd` boxes whose fields agree, but for those that a box of this version does not have. -/
structure SgpdLike (b c : Sgpd) : Prop where
  fb : b.toFullBox = c.toFullBox
  grouping : b.grouping_type = c.grouping_type
  roll : b.roll_distances = c.roll_distances
  alst : b.alternative_startup_entries = c.alternative_startup_entries
  rap : b.visual_random_access_entries = c.visual_random_access_entries
  tele : b.temporal_level_entries = c.temporal_level_entries
  default : b.version = 1 → b.default_length = c.default_length
  index : ¬ b.version = 1 → b.default_sample_description_index = c.default_sample_description_index

theorem SgpdLike.noDefault {b c : Sgpd} (h : SgpdLike b c) : noDefaultLength b.version b.default_length = noDefaultLength c.version c.default_length := by
  rw [← h.fb]
  by_cases hv : b.version = 1
  · rw [h.default hv]
  · have : ∀ l, noDefaultLength b.version l = false := by
      intro l
      have hv' : ¬ b.version = 1#8 := hv
      simp [noDefaultLength, hv']
    rw [this, this]

theorem SgpdLike.alike {b c : Sgpd} (t : BoxType) (h : SgpdLike b c) : Alike t (.sgpd b) (.sgpd c) := by
  have hn := h.noDefault
  obtain ⟨fb, g, l, i, r1, r2, r3, r4⟩ := b
  obtain ⟨fb', g', l', i', r1', r2', r3', r4'⟩ := c
  obtain ⟨h1, h2, h3, h4, h5, h6, h7, h8⟩ := h
  dsimp only at h1 h2 h3 h4 h5 h6 h7 h8 hn
  subst h1; subst h2; subst h3; subst h4; subst h5; subst h6
  refine Alike.of_not_wave ?_ rfl ?_ rfl
  · show Except.ok (Sgpd.toStringOnlyData _) = Except.ok (Sgpd.toStringOnlyData _)
    unfold Sgpd.toStringOnlyData
    dsimp only
    rw [hn]
    by_cases hv : fb.version = 1
    · rw [h7 hv]; simp only [if_pos hv]
    · rw [h8 hv]; simp only [if_neg hv]
  · show Sgpd.writeData _ = Sgpd.writeData _
    unfold Sgpd.writeData
    dsimp only
    by_cases hv : fb.version = 1
    · rw [h7 hv]; simp only [if_pos hv]
    · rw [h8 hv]; simp only [if_neg hv]

/-- `Sgpd::readData` behind the three fields that come first. -/
theorem Sgpd.rest_blind (t : BoxType) (b c : Sgpd) (rbits : Nat) (h : SgpdLike b c)
    (hl : isAlst b.grouping_type = true → b.default_length = c.default_length) :
    Blind (Out t .sgpd)
      (if isRoll b.grouping_type then (read_uint 32).bind fun x => (readN (RollDistance.readData (noDefaultLength b.version b.default_length)) x.2.toNat).bind fun z =>
          .ret (rbits + x.1 + z.1, { b with roll_distances := z.2 })
        else if isAlst b.grouping_type then (read_uint 32).bind fun x => (readN (StartupEntry.readData b.default_length (noDefaultLength b.version b.default_length)) x.2.toNat).bind fun z =>
          .ret (rbits + x.1 + z.1, { b with alternative_startup_entries := z.2 })
        else if isRap b.grouping_type then (read_uint 32).bind fun x => (readN (RapEntry.readData (noDefaultLength b.version b.default_length)) x.2.toNat).bind fun z =>
          .ret (rbits + x.1 + z.1, { b with visual_random_access_entries := z.2 })
        else if isTele b.grouping_type then (read_uint 32).bind fun x => (readN (TeleEntry.readData (noDefaultLength b.version b.default_length)) x.2.toNat).bind fun z =>
          .ret (rbits + x.1 + z.1, { b with temporal_level_entries := z.2 })
        else .ret (rbits, b))
      (if isRoll c.grouping_type then (read_uint 32).bind fun x => (readN (RollDistance.readData (noDefaultLength c.version c.default_length)) x.2.toNat).bind fun z =>
          .ret (rbits + x.1 + z.1, { c with roll_distances := z.2 })
        else if isAlst c.grouping_type then (read_uint 32).bind fun x => (readN (StartupEntry.readData c.default_length (noDefaultLength c.version c.default_length)) x.2.toNat).bind fun z =>
          .ret (rbits + x.1 + z.1, { c with alternative_startup_entries := z.2 })
        else if isRap c.grouping_type then (read_uint 32).bind fun x => (readN (RapEntry.readData (noDefaultLength c.version c.default_length)) x.2.toNat).bind fun z =>
          .ret (rbits + x.1 + z.1, { c with visual_random_access_entries := z.2 })
        else if isTele c.grouping_type then (read_uint 32).bind fun x => (readN (TeleEntry.readData (noDefaultLength c.version c.default_length)) x.2.toNat).bind fun z =>
          .ret (rbits + x.1 + z.1, { c with temporal_level_entries := z.2 })
        else .ret (rbits, c)) := by
  rw [← h.grouping, ← h.noDefault]
  obtain ⟨h1, h2, h3, h4, h5, h6, h7, h8⟩ := h
  split
  · refine Blind.same _ fun x => Blind.same _ fun z => Blind.ret ⟨rfl, SgpdLike.alike t ⟨h1, rfl, rfl, h4, h5, h6, h7, h8⟩⟩
  split
  · next ha =>
    rw [← hl ha]
    refine Blind.same _ fun x => Blind.same _ fun z => Blind.ret ⟨rfl, SgpdLike.alike t ⟨h1, rfl, h3, rfl, h5, h6, fun _ => rfl, h8⟩⟩
  split
  · refine Blind.same _ fun x => Blind.same _ fun z => Blind.ret ⟨rfl, SgpdLike.alike t ⟨h1, rfl, h3, h4, rfl, h6, h7, h8⟩⟩
  split
  · refine Blind.same _ fun x => Blind.same _ fun z => Blind.ret ⟨rfl, SgpdLike.alike t ⟨h1, rfl, h3, h4, h5, rfl, h7, h8⟩⟩
  · exact Blind.ret ⟨rfl, SgpdLike.alike t ⟨h1, h2, h3, h4, h5, h6, h7, h8⟩⟩

theorem SameEnd.bind {S : γ → δ → Prop} {p : R α} {f : α → R γ} {g : α → R δ} {d : List Byte} {s : List Bool}
    (k : ∀ a s', p.run d s = .ok (a, s') → SameEnd S ((f a).run d s') ((g a).run d s')) :
    SameEnd S ((p.bind f).run d s) ((p.bind g).run d s) := by
  rw [run_bind, run_bind]
  cases h : p.run d s with
  | error e => exact rfl
  | ok x => exact k x.1 x.2 h

theorem Sgpd.blind (t : BoxType) (x y : Sgpd) (d : List Byte)
    (hx : x.roll_distances = [] ∧ x.alternative_startup_entries = [] ∧ x.visual_random_access_entries = [] ∧ x.temporal_level_entries = [])
    (hy : y.roll_distances = [] ∧ y.alternative_startup_entries = [] ∧ y.visual_random_access_entries = [] ∧ y.temporal_level_entries = [])
    (h : NoLength d → x.default_length = y.default_length) :
    SameEnd (Out t .sgpd) ((Sgpd.readData x).run d (bytesBits d)) ((Sgpd.readData y).run d (bytesBits d)) := by
  have hlen := bytesBits_length d
  obtain ⟨hx1, hx2, hx3, hx4⟩ := hx
  obtain ⟨hy1, hy2, hy3, hy4⟩ := hy
  unfold Sgpd.readData
  simp only [bind_eq, pure_eq]
  rw [← List.drop_zero (l := bytesBits d)]
  refine SameEnd.bind fun ⟨_, fb⟩ s1 hr => ?_
  have e1 : s1 = (bytesBits d).drop 32 := by
    obtain ⟨k1, k2⟩ := takes_fullBox (S := bytesBits d) (o := 0) d
    by_cases hd : 0 + 32 ≤ (bytesBits d).length
    · obtain ⟨_, _, k⟩ := k1 hd
      rw [hr] at k
      injection k with k
      exact congrArg Prod.snd k
    · rw [k2 (by omega)] at hr; cases hr
  subst e1
  refine SameEnd.bind fun ⟨_, g⟩ s2 hg => ?_
  have hg := code4_val hg
  have hv := (fullBox_val hr).1
  rw [version_bytes d] at hv
  have h4 := fieldAt_bytes d 4 4
  simp only [Nat.reduceMul] at h4
  rw [h4] at hg
  have key : fb.version ≠ 1 → isAlst g = true → x.default_length = y.default_length := by
    intro h1 h2
    refine h ⟨fun k => h1 (BitVec.eq_of_toNat_eq (by rw [hv, k]; rfl)), ?_⟩
    have : g = ⟨0x61#8, 0x6c#8, 0x73#8, 0x74#8⟩ := by simpa [isAlst] using h2
    rw [hg, this]
    decide
  refine Blind.same _ (fun ⟨_, v⟩ => ?_) _ _
  dsimp only
  by_cases h1 : fb.version = 1
  · simp only [if_pos h1]
    exact Sgpd.rest_blind t { x with toFullBox := fb, grouping_type := g, default_length := v }
      { y with toFullBox := fb, grouping_type := g, default_length := v } _ ⟨rfl, rfl, hx1.trans hy1.symm, hx2.trans hy2.symm, hx3.trans hy3.symm, hx4.trans hy4.symm,
      fun _ => rfl, fun k => absurd h1 k⟩ (fun _ => rfl)
  · simp only [if_neg h1]
    exact Sgpd.rest_blind t { x with toFullBox := fb, grouping_type := g, default_sample_description_index := v }
      { y with toFullBox := fb, grouping_type := g, default_sample_description_index := v } _ ⟨rfl, rfl, hx1.trans hy1.symm, hx2.trans hy2.symm, hx3.trans hy3.symm, hx4.trans hy4.symm,
      fun k => absurd k h1, fun _ => rfl⟩ (fun k => key h1 k)

/-! ### All classes -/

theorem blind_wrap {t : BoxType} {mk : α → BoxData} {p q : R (Nat × α)} (h : Blind (Out t mk) p q) :
    Blind (Out t id) (p.bind fun x => .ret (x.1, mk x.2)) (q.bind fun x => .ret (x.1, mk x.2)) :=
  Blind.bind h fun _ _ k => Blind.ret k

theorem BoxData.blind (env env' : Env) (hf : env.Fresh) (hf' : env'.Fresh) (t : BoxType) (wave : Bool) (k : Kind) (d : List Byte)
    (h : k = .sgpd → NoLength d → env.sgpd.default_length = env'.sgpd.default_length) :
    SameEnd (Out t id) ((BoxData.readData env t wave k).run d (bytesBits d)) ((BoxData.readData env' t wave k).run d (bytesBits d)) := by
  by_cases hk : k = .sgpd
  · subst hk
    show SameEnd _ (((Sgpd.readData env.sgpd).bind _).run d _) (((Sgpd.readData env'.sgpd).bind _).run d _)
    have := Sgpd.blind t env.sgpd env'.sgpd d hf.sgpd hf'.sgpd (h rfl)
    rw [run_bind, run_bind]
    revert this
    rcases (Sgpd.readData env.sgpd).run d (bytesBits d) with e | ⟨a, s1⟩ <;>
      rcases (Sgpd.readData env'.sgpd).run d (bytesBits d) with e' | ⟨b, s2⟩ <;> intro this
    · exact this
    · exact this.elim
    · exact this.elim
    · exact this
  · have : Blind (Out t id) (BoxData.readData env t wave k) (BoxData.readData env' t wave k) := by
      cases k with
      | sgpd => exact absurd rfl hk
      | sbgp => exact blind_wrap (Sbgp.blind t _ _)
      | tfhd => exact blind_wrap (Tfhd.blind t _ _)
      | trun => exact blind_wrap (Trun.blind t _ _)
      | avcC => exact blind_wrap (AvcC.blind t _ _)
      | audio => exact blind_wrap (Audio.blind t _ _ rfl rfl (hf.audio.trans hf'.audio.symm))
      | url => exact blind_wrap (Url.blind t _ _ hf.url hf'.url)
      | urn => exact blind_wrap (Urn.blind t _ _ hf.urn hf'.urn)
      | colr => exact blind_wrap (Colr.blind t _ _)
      | pssh => exact blind_wrap (Pssh.blind t _ _ hf.pssh hf'.pssh)
      | esds => exact blind_wrap (Esds.blind t _ _)
      | _ => exact out_same (mk := id) _
    exact this d _

end Mp4
