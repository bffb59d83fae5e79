import Verif.Spec.Ranges
import Verif.Props.Dump
import Verif.Props.ReadMovie

/-! # C96: which codec configurations come back from a file -/

namespace Mp4
open Spec

namespace R

theorem ensures_readN_all {α : Type} (p : R (Nat × α)) (P : α → Prop) (hp : Ensures p fun x => P x.2) (n : Nat) :
    Ensures (readN p n) fun x => ∀ a ∈ x.2, P a := by
  induction n with
  | zero => exact Ensures.ret (by simp)
  | succ n ih =>
    rw [readN]
    refine Ensures.bind hp (fun a ha => ?_)
    refine Ensures.bind ih (fun b hb => ?_)
    refine Ensures.ret ?_
    intro x hx
    rcases List.mem_cons.1 hx with rfl | hx
    · exact ha
    · exact hb x hx

theorem Ensures.and {α : Type} {p : R α} {P Q : α → Prop} (h : Ensures p P) (h' : Ensures p Q) : Ensures p fun x => P x ∧ Q x :=
  fun d s a s' hr => ⟨h d s a s' hr, h' d s a s' hr⟩

theorem ensures_parameterSet : Ensures AVCParameterSet.readData fun x => x.2.length < 2 ^ 16 := by
  unfold AVCParameterSet.readData
  refine Ensures.bind (ensures_read_uint 16 16 (by decide)) (fun a ha => ?_)
  refine Ensures.bind (ensures_readN _ _) (fun b hb => ?_)
  exact Ensures.ret (by rw [hb]; exact ha.1)

theorem ensures_avcC (old : AvcC) : Ensures (AvcC.readData old) fun x => InRange (.avcC x.2) := by
  unfold AvcC.readData
  iterate 7 refine Ensures.bind (Ensures.any _) (fun _ _ => ?_)
  refine Ensures.bind (ensures_read_uint 8 5 (by decide)) (fun c hc => ?_)
  refine Ensures.bind ((ensures_readN _ _).and (ensures_readN_all _ (fun l : List Byte => l.length < 2 ^ 16) ensures_parameterSet _)) (fun x hx => ?_)
  refine Ensures.bind (ensures_read_uint 8 8 (by decide)) (fun d hd => ?_)
  refine Ensures.bind ((ensures_readN _ _).and (ensures_readN_all _ (fun l : List Byte => l.length < 2 ^ 16) ensures_parameterSet _)) (fun y hy => ?_)
  have hall : x.2.length < 32 ∧ (∀ n ∈ x.2, n.length < 2 ^ 16) ∧ y.2.length < 256 ∧ ∀ n ∈ y.2, n.length < 2 ^ 16 :=
    ⟨by rw [hx.1]; exact hc.1, hx.2, by rw [hy.1]; exact hd.1, hy.2⟩
  dsimp only
  split
  · exact Ensures.ret hall
  · refine Ensures.bind (Ensures.any _) (fun _ _ => ?_)
    split
    · exact Ensures.ret hall
    · iterate 8 refine Ensures.bind (Ensures.any _) (fun _ _ => ?_)
      exact Ensures.ret hall

theorem ensures_av1C : Ensures Av1C.readData fun x => InRange (.av1C x.2) := by
  unfold Av1C.readData
  iterate 2 refine Ensures.bind (Ensures.any _) (fun _ _ => ?_)
  refine Ensures.bind (ensures_read_uint 8 3 (by decide)) (fun a ha => ?_)
  refine Ensures.bind (ensures_read_uint 8 5 (by decide)) (fun b hb => ?_)
  refine Ensures.bind (ensures_read_uint 8 1 (by decide)) (fun c hc => ?_)
  iterate 3 refine Ensures.bind (Ensures.any _) (fun _ _ => ?_)
  refine Ensures.bind (ensures_read_uint 8 1 (by decide)) (fun d hd => ?_)
  refine Ensures.bind (ensures_read_uint 8 1 (by decide)) (fun e he => ?_)
  refine Ensures.bind (ensures_read_uint 8 2 (by decide)) (fun f hf => ?_)
  repeat refine Ensures.bind (Ensures.any _) (fun _ _ => ?_)
  exact Ensures.ret ⟨ha.1, hb.1, by simpa using hc.1, by simpa using hd.1, by simpa using he.1, hf.1⟩

/-- The buffer size of a descriptor that is a decoder configuration has 24 bits. -/
def Small24 (d : Descriptor) : Prop := ∀ f subs, d = .decConfig f subs → f.buffer_size_db.toNat < 2 ^ 24

theorem ensures_decConfig : Ensures DecConfigFields.readData fun x => Small24 x.2 := by
  unfold DecConfigFields.readData
  iterate 5 refine Ensures.bind (Ensures.any _) (fun _ _ => ?_)
  refine Ensures.bind (ensures_read_uint 32 24 (by decide)) (fun a ha => ?_)
  iterate 2 refine Ensures.bind (Ensures.any _) (fun _ _ => ?_)
  refine Ensures.ret ?_
  intro f subs e
  cases e
  exact ha.1

theorem ensures_es (g : ESJunk) : Ensures (ESFields.readData g) fun x => Small24 x.2 := by
  unfold ESFields.readData
  iterate 9 refine Ensures.bind (Ensures.any _) (fun _ _ => ?_)
  refine Ensures.ret ?_
  intro f subs e
  cases e

theorem ensures_info (mk : List Byte → Descriptor) (hmk : ∀ l, Small24 (mk l)) : Ensures (readInfo mk) fun x => Small24 x.2 := by
  unfold readInfo
  iterate 2 refine Ensures.bind (Ensures.any _) (fun _ _ => ?_)
  exact Ensures.ret (hmk _)

theorem ensures_readGo (g : ESJunk) (fb : FullBox) (fuel : Nat) : ∀ rbits acc, (∀ d ∈ acc, Small24 d) →
    Ensures (Esds.readGo g fb fuel rbits acc) fun x => ∀ d ∈ x.2.descriptors, Small24 d := by
  induction fuel with
  | zero => intro _ acc h; exact Ensures.ret h
  | succ fuel ih =>
    intro rbits acc h
    have hadd : ∀ d, Small24 d → ∀ x ∈ acc ++ [d], Small24 x := by
      intro d hd x hx
      rcases List.mem_append.1 hx with hx | hx
      · exact h x hx
      · rw [List.mem_singleton.1 hx]; exact hd
    unfold Esds.readGo
    refine Ensures.bind (Ensures.any _) (fun n _ => ?_)
    split
    · exact Ensures.ret h
    · refine Ensures.bind (Ensures.any _) (fun tag _ => ?_)
      dsimp only
      split
      · exact Ensures.bind (ensures_es g) (fun x hx => ih _ _ (hadd _ hx))
      · split
        · exact Ensures.bind ensures_decConfig (fun x hx => ih _ _ (hadd _ hx))
        · split
          · exact Ensures.bind (ensures_info _ (fun _ _ _ e => by cases e)) (fun x hx => ih _ _ (hadd _ hx))
          · split
            · exact Ensures.bind (ensures_info _ (fun _ _ _ e => by cases e)) (fun x hx => ih _ _ (hadd _ hx))
            · exact Ensures.ret h

theorem ensures_esds (g : ESJunk) : Ensures (Esds.readData g) fun x => InRange (.esds x.2) := by
  unfold Esds.readData
  iterate 2 refine Ensures.bind (Ensures.any _) (fun _ _ => ?_)
  intro d s a s' hr f subs hm
  exact ensures_readGo g _ _ _ [] (by simp) d s a s' hr _ hm f subs rfl

theorem ensures_inRange (env : Env) (t : BoxType) (wave : Bool) (k : Kind) :
    Ensures (BoxData.readData env t wave k) fun x => InRange x.2 := by
  have none : ∀ {α : Type} (p : R (Nat × α)) (f : α → BoxData), (∀ a, InRange (f a)) →
      Ensures (p.bind fun x => .ret (x.1, f x.2)) fun x => InRange x.2 :=
    fun p f hf => Ensures.bind (Ensures.any p) (fun a _ => Ensures.ret (hf _))
  cases k with
  | avcC => exact Ensures.bind (ensures_avcC _) (fun _ h => Ensures.ret h)
  | av1C => exact Ensures.bind ensures_av1C (fun _ h => Ensures.ret h)
  | esds => exact Ensures.bind (ensures_esds _) (fun _ h => Ensures.ret h)
  | empty => exact Ensures.ret trivial
  | _ => exact none _ _ (fun _ => trivial)

end R

theorem readContent_inRange (sr : SimpleReader) (wave : Bool) (h : BoxHeader) (b : Box) (n : Nat) (hc : sr.readContent wave h = .ok (b, n)) :
    InRange b.data := by
  rw [SimpleReader.readContent] at hc
  dsimp only at hc
  split at hc
  · cases hc
  · split at hc
    · cases hc
    · rename_i rbits data r hrun
      split at hc
      · cases hc
      · cases hc
        generalize slice sr.data (h.offset + h.headerSize) h.getDataSize = d at hrun
        have hrc := R.runC_run (BoxData.readData (sr.env h.offset) (sr.classOf h.type).2 wave (sr.classOf h.type).1) (Reader.new ⟨d, 0⟩)
          (Reader.new_inv _ (by simp))
        generalize hrun' : (BoxData.readData (sr.env h.offset) (sr.classOf h.type).2 wave (sr.classOf h.type).1).run (Reader.new ⟨d, 0⟩).is.data
          (Reader.new ⟨d, 0⟩).rem = y at hrc
        cases y with
        | error e => dsimp only at hrc; rw [hrun] at hrc; cases hrc
        | ok y =>
          obtain ⟨⟨m', a⟩, s⟩ := y
          obtain ⟨r'', e1, -⟩ := hrc
          rw [hrun] at e1
          simp only [Except.ok.injEq, Prod.mk.injEq] at e1
          have := R.ensures_inRange (sr.env h.offset) (sr.classOf h.type).2 wave (sr.classOf h.type).1 _ _ _ _ hrun'
          rw [← e1.1.2] at this
          exact this

/-- **C96 (every file).** In every file that the reader accepts, every codec configuration is in range, wherever it is nested. -/
theorem C96_file (sr : SimpleReader) (vs : List BoxHeader) (ts : List Tree) (hr : sr.read = some ⟨vs, .ok ts⟩) :
    ∀ b ∈ boxesOfList ts, InRange b.data := by
  intro b hb
  have hall : Tree.AllList (fun b => InRange b.data) ts := by
    rw [SimpleReader.read, SimpleReader.readWith] at hr
    split at hr
    · cases hr
    · cases hr
    · rename_i hk
      cases hr
      exact (read_all sr _ (readContent_inRange sr) _).2 _ _ _ _ _ _ _ _ _ hk
  by_cases h : InRange b.data
  · exact h
  · exact absurd hall ((not_all_iff.not_allList_iff _ ts).2 ⟨b, hb, h⟩)

/-! ### From a movie to its boxes -/

theorem boxesOf_leaf {t : Tree} {ts : List Tree} (h : t ∈ ts) : ∀ b ∈ boxesOf t, b ∈ boxesOfList ts := by
  induction ts with
  | nil => cases h
  | cons x ts ih =>
    intro b hb
    rw [boxesOfList, List.mem_append]
    rcases List.mem_cons.1 h with rfl | h
    · exact .inl hb
    · exact .inr (ih h b hb)

theorem boxesOf_of_leafs (t : Tree) : ∀ b ∈ boxesOfList t.leafs, b ∈ boxesOf t := by
  intro b hb
  cases t with
  | node x p ls => rw [boxesOf]; exact List.mem_cons_of_mem _ hb

theorem box_mem (t : Tree) : t.box ∈ boxesOf t := by
  cases t with
  | node x p ls => rw [boxesOf]; exact List.mem_cons_self

theorem boxesOf_at (path : List BoxType) : ∀ (t t' : Tree), at_ path t = some t' → ∀ b ∈ boxesOf t', b ∈ boxesOf t := by
  induction path with
  | nil => intro t t' h b hb; cases h; exact hb
  | cons ty tys ih =>
    intro t t' h b hb
    rw [at_] at h
    cases hc : child ty t with
    | none => rw [hc] at h; cases h
    | some c =>
      rw [hc] at h
      exact boxesOf_of_leafs t b (boxesOf_leaf (List.mem_of_find?_eq_some hc) b (ih c t' h b hb))

theorem inRange_at {path : List String} {t : Tree} {d : BoxData} (h : dataAt path t = some d) (hr : ∀ b ∈ boxesOf t, InRange b.data) :
    InRange d := by
  unfold dataAt at h
  cases ha : at_ (path.map fourcc) t with
  | none => rw [ha] at h; cases h
  | some u =>
    rw [ha] at h
    cases h
    exact hr _ (boxesOf_at _ _ _ ha _ (box_mem u))

/-- A sample entry that says what was configured, and comes from a file, shows that the configuration fits. -/
theorem fits_of_entry {a : TrackAsked} {entry : Tree} (he : Entry a entry) (hr : ∀ b ∈ boxesOf entry, InRange b.data)
    (hw : WellFormedBuffers a) : CodecFits a := by
  unfold Entry at he
  unfold WellFormedBuffers at hw
  unfold CodecFits
  cases hc : a.codec with
  | h264 w h cfg =>
    rw [hc] at he hw
    dsimp only at he hw ⊢
    obtain ⟨uss, e, hu⟩ := hw
    obtain ⟨-, c, h1, -, -, -, -, h2⟩ := he
    obtain ⟨r1, r2, r3, r4⟩ := inRange_at h1 hr
    have := h2 uss e hu
    refine ⟨uss, e, hu, ?_⟩
    rw [← this]
    exact ⟨⟨r1, r2⟩, r3, r4⟩
  | vpx => trivial
  | av1 w h cfg =>
    rw [hc] at he
    exact inRange_at he.2 hr
  | opus => trivial
  | aac b m v =>
    rw [hc] at he
    obtain ⟨-, -, e, es, ss, dc, ds, h1, -, h2, -, -, -, h3⟩ := he
    have := inRange_at h1 hr dc ds (by rw [h2]; simp)
    rw [h3.2.2.2.2.1] at this
    exact this
  | mp3 b m v =>
    rw [hc] at he
    obtain ⟨-, e, es, ss, dc, ds, h1, -, h2, -, -, -, h3⟩ := he
    have := inRange_at h1 hr dc ds (by rw [h2]; simp)
    rw [h3.2.2.2.2.1] at this
    exact this

/-- **C96 (only what fits can be read back).** Take any file whatsoever that a reader accepts, and any list of calls whose H.264 buffers are byte
streams of well-formed NAL units.  If the `moov` of the file says about every track what the calls asked for, then the configuration of every track
fits its fields.  So a track with more parameter sets than the fields can count, or with an AV1 or MPEG-4 value that is too large, has no file from
which it could be read back. -/
theorem C96_only (sr : SimpleReader) (types : List String) (f : Ftyp) (samples : List Byte) (moov : Tree) (P : Precision) (calls : List Call)
    (es : List Event) (hm : ReadsMovie sr types f samples moov)
    (hp : EachTrak (fun a ss trak => Parameters P a ss.length trak) calls es moov) (hw : ∀ a ∈ asked calls, WellFormedBuffers a) :
    ∀ a ∈ asked calls, CodecFits a := by
  intro a ha
  obtain ⟨log, forest, hr, -, -, -, hmoov⟩ := hm
  have hall : ∀ b ∈ boxesOf moov, InRange b.data :=
    fun b hb => C96_file sr log forest hr b (boxesOf_leaf (List.mem_of_find?_eq_some hmoov) b hb)
  obtain ⟨i, hi, rfl⟩ := List.mem_iff_getElem.1 ha
  obtain ⟨trak, ht⟩ : ∃ trak, (traks moov)[i]? = some trak := by
    have : i < (traks moov).length := by rw [hp.1]; exact hi
    exact ⟨_, List.getElem?_eq_getElem this⟩
  have hpar := hp.2 i _ trak (List.getElem?_eq_getElem hi) ht
  have htm : trak ∈ moov.leafs := (List.mem_filter.1 (List.mem_of_getElem? ht)).1
  obtain ⟨d, entry, h1, -, h2, h3⟩ := hpar.stsd
  refine fits_of_entry h3 (fun b hb => hall b ?_) (hw _ ha)
  exact boxesOf_of_leafs moov b (boxesOf_leaf htm b (boxesOf_at _ _ _ h1 b (boxesOf_of_leafs d b (boxesOf_leaf (by rw [h2]; simp) b hb))))

/-- **C96 (`SimpleWriter`).** As long as the file stays below 2^63 bytes and no track gets 2^32 - 1 samples or a sample of 4 GiB: the finished file
gives back what every track was asked to say if and only if the configuration of every track fits its fields. -/
theorem C96_simple (os : OStream) (hos : os.data = []) (f : Ftyp) (ts : BitVec 32) (dur now : BitVec 64) (calls : List Call)
    (hf : f.compatible_brands.length < 2 ^ 32) (hw : ∀ a ∈ asked calls, WellFormedBuffers a) :
    ∃ s es, SimpleWriter.session os f ts dur now calls = .ok s ∧ Spec.Expands [] calls es ∧
      (Tree.totalList (Spec.simpleFile f (Spec.mdat es) (SimpleWriter.moovOf s)) < 2 ^ 63 →
       (∀ i, (Spec.samplesOf i es).length < 2 ^ 32 - 1) → (∀ i, ∀ x ∈ Spec.samplesOf i es, x.data.length < 2 ^ 32) →
       ((∀ a ∈ Spec.asked calls, Spec.CodecFits a) ↔
        ∃ w, SimpleWriter.finish s = .ok w ∧ ∃ (file : Bool) (env : Nat → Env) (moov : Tree),
          Spec.ReadsMovie { file, env, data := w.os.data } (Spec.simpleTypes (Spec.mdat es)) f (Spec.mdat es) moov ∧
          Spec.EachTrak (fun a ss trak => Spec.Parameters Spec.inFile a ss.length trak) calls es moov)) := by
  obtain ⟨s, es, h1, h2, h3⟩ := C60_simple os hos f ts dur now calls hf
  refine ⟨s, es, h1, h2, fun a1 a2 a3 => ⟨fun hc => ?_, ?_⟩⟩
  · obtain ⟨w, k1, k2⟩ := h3 a1 a2 a3 hc
    obtain ⟨moov, m1, -, -, -, m2, -⟩ := k2 true (fun _ => default)
    exact ⟨w, k1, _, _, moov, m1, m2⟩
  · rintro ⟨w, -, file, env, moov, m1, m2⟩
    exact C96_only _ _ _ _ moov _ calls es m1 m2 hw

/-- **C96 (`FaststartWriter`).** -/
theorem C96_faststart (os : OStream) (hos : os.data = []) (f : Ftyp) (ts : BitVec 32) (dur now : BitVec 64) (calls : List Call)
    (hf : f.compatible_brands.length < 2 ^ 32) (hw : ∀ a ∈ asked calls, WellFormedBuffers a) :
    ∃ s es, FaststartWriter.session os f ts dur now calls = .ok s ∧ Spec.Expands [] calls es ∧
      (FaststartWriter.sizeBound s f (Spec.mdat es) < 2 ^ 63 →
       (∀ i, (Spec.samplesOf i es).length < 2 ^ 32 - 1) → (∀ i, ∀ x ∈ Spec.samplesOf i es, x.data.length < 2 ^ 32) →
       ((∀ a ∈ Spec.asked calls, Spec.CodecFits a) ↔
        ∃ w, FaststartWriter.finish s = .ok w ∧ ∃ (file : Bool) (env : Nat → Env) (moov : Tree),
          Spec.ReadsMovie { file, env, data := w.os.data } ["ftyp", "moov", "mdat"] f (Spec.mdat es) moov ∧
          Spec.EachTrak (fun a ss trak => Spec.Parameters Spec.inFile a ss.length trak) calls es moov)) := by
  obtain ⟨s, es, h1, h2, h3⟩ := C60_faststart os hos f ts dur now calls hf
  refine ⟨s, es, h1, h2, fun a1 a2 a3 => ⟨fun hc => ?_, ?_⟩⟩
  · obtain ⟨w, k1, k2⟩ := h3 a1 a2 a3 hc
    obtain ⟨moov, m1, -, -, -, m2, -⟩ := k2 true (fun _ => default)
    exact ⟨w, k1, _, _, moov, m1, m2⟩
  · rintro ⟨w, -, file, env, moov, m1, m2⟩
    exact C96_only _ _ _ _ moov _ calls es m1 m2 hw

end Mp4
