import Verif.Lemmas.Kept

/-! # What a reader gets of the boxes of a movie -/

namespace Mp4
open Tree

theorem kept0 (fb : FullBox) (v : BitVec 64) (h : fb.version = 0#8) : keptTime fb v = Spec.inFile.time v := by
  unfold keptTime
  rw [if_pos h]; rfl

theorem keptS0 (fb : FullBox) (v : BitVec 64) (h : fb.version = 0#8) : keptSTime fb v = Spec.inFile.stime v := by
  unfold keptSTime
  rw [if_pos h]; rfl

theorem Tables.kept {a : Spec.TrackAsked} {ss : List Sample} {t t' : Tree} (h : Spec.Tables a ss t) (k : Kept t t') :
    Spec.Tables a ss t' := by
  constructor
  · obtain ⟨b, h1, h2⟩ := h.stts
    obtain ⟨env, ty, h3⟩ := k.dataAt h1
    exact ⟨b, h3, h2⟩
  · obtain ⟨b, h1, h0, h2, h4⟩ := h.stsz
    obtain ⟨env, ty, h3⟩ := k.dataAt h1
    refine ⟨b, ?_, h0, h2, h4⟩
    rw [h3]
    show some (BoxData.stsz (if b.sample_size = 0 then b else _)) = _
    rw [if_pos h2]
  · intro hv
    obtain ⟨b, h1, h2⟩ := h.stss hv
    obtain ⟨env, ty, h3⟩ := k.dataAt h1
    exact ⟨b, h3, h2⟩
  · obtain ⟨b, h1, h2⟩ := h.stsc
    obtain ⟨env, ty, h3⟩ := k.dataAt h1
    exact ⟨b, h3, h2⟩
  · rcases h.offsets with ⟨b, h1, h2⟩ | ⟨b, h1, h2⟩ <;> obtain ⟨env, ty, h3⟩ := k.dataAt h1
    · exact .inl ⟨b, h3, h2⟩
    · exact .inr ⟨b, h3, h2⟩
  · intro hv
    exact k.noneAt (h.noStss hv)

theorem VisualEntry.kept {type : String} {w h : BitVec 32} {t t' : Tree} (e : Spec.VisualEntry type w h t) (k : Kept t t') :
    Spec.VisualEntry type w h t' := by
  obtain ⟨h1, h2⟩ := e
  obtain ⟨env, h4⟩ := k.data
  exact ⟨k.type.trans h1, by rw [h4, h2]; rfl⟩

theorem AudioEntry.kept {type : String} {rate : BitVec 32} {t t' : Tree} (e : Spec.AudioEntry type rate t) (k : Kept t t') :
    Spec.AudioEntry type rate t' := by
  obtain ⟨h1, v, h2, h3, h4, h5, h6, h7, h8, h9, h10, h11, h12, h13⟩ := e
  obtain ⟨env, h0⟩ := k.data
  rw [h2] at h0
  exact ⟨k.type.trans h1, _, h0, h1, h4, h5, h6, h7, h8, h9, h10, h11, h12, h13⟩

theorem declared_decConfig (g : ESJunk) (f : DecConfigFields) (ds : List Descriptor) (h : Layout.declaredSize (.decConfig f ds) < 2 ^ 32) :
    Layout.declaredSize ((Descriptor.decConfig f ds).stored g) = Layout.declaredSize (.decConfig f ds) := by
  have h2 : 13 ≤ Layout.declaredSize (.decConfig f ds) := by rw [Layout.declaredSize]; omega
  unfold Descriptor.stored
  generalize hN : Layout.declaredSize (.decConfig f ds) = N at h h2
  dsimp only
  rw [Layout.declaredSize]
  dsimp only
  split
  · rw [BitVec.toNat_ofNat, Nat.mod_eq_of_lt (by omega)]; omega
  · rename_i hz
    rw [Decidable.not_not] at hz
    have := congrArg BitVec.toNat hz
    rw [BitVec.toNat_ofNat, Nat.mod_eq_of_lt (by omega), show (0 : BitVec 32).toNat = 0 from rfl] at this
    rw [List.map_nil, List.sum_nil]; omega

theorem declared_es (g : ESJunk) (f : ESFields) (ds : List Descriptor) (hu : f.url_flag = false)
    (h : Layout.declaredSize (.es f ds) < 2 ^ 32) :
    Layout.declaredSize ((Descriptor.es f ds).stored g) = Layout.declaredSize (.es f ds) := by
  have h2 : Layout.esOwnSize f ≤ Layout.declaredSize (.es f ds) := by rw [Layout.declaredSize]; omega
  unfold Descriptor.stored
  generalize hN : Layout.declaredSize (.es f ds) = N at h h2
  dsimp only
  rw [Layout.declaredSize]
  have he : ∀ x y z : _, Layout.esOwnSize { f with sub_descriptors_size := x, depends_on_esid := y, url_string := if f.url_flag then f.url_string else [], OCRESID := z } =
      Layout.esOwnSize f := by
    intro x y z
    unfold Layout.esOwnSize
    dsimp only
    rw [hu]; rfl
  rw [he]
  dsimp only
  split
  · rw [BitVec.toNat_ofNat, Nat.mod_eq_of_lt (by omega)]; omega
  · rename_i hz
    rw [Decidable.not_not] at hz
    have := congrArg BitVec.toNat hz
    rw [BitVec.toNat_ofNat, Nat.mod_eq_of_lt (by omega), show (0 : BitVec 32).toNat = 0 from rfl] at this
    rw [Layout.nestedSize]; omega

theorem Entry.kept {a : Spec.TrackAsked} {t t' : Tree} (e : Spec.Entry a t) (k : Kept t t') : Spec.Entry a t' := by
  unfold Spec.Entry at e ⊢
  cases hc : a.codec with
  | h264 w h cfg =>
    rw [hc] at e
    obtain ⟨e1, c, e2, e3, e4, e5⟩ := e
    obtain ⟨env, ty, e6⟩ := k.dataAt e2
    refine ⟨VisualEntry.kept e1 k, _, e6, ?_⟩
    rw [if_neg (by rw [e4]; decide)]
    exact ⟨e3, e4, e5⟩
  | vpx vp8 w h m av =>
    rw [hc] at e
    obtain ⟨e1, e2, e3, e4, e5⟩ := e
    obtain ⟨_, _, f2⟩ := k.dataAt e2
    obtain ⟨_, _, f3⟩ := k.dataAt e3
    obtain ⟨_, _, f4⟩ := k.dataAt e4
    obtain ⟨_, _, f5⟩ := k.dataAt e5
    exact ⟨VisualEntry.kept e1 k, f2, f3, f4, f5⟩
  | av1 w h cfg =>
    rw [hc] at e
    obtain ⟨e1, e2⟩ := e
    obtain ⟨_, _, f2⟩ := k.dataAt e2
    exact ⟨VisualEntry.kept e1 k, f2⟩
  | opus p r =>
    rw [hc] at e
    obtain ⟨e1, e2⟩ := e
    obtain ⟨_, _, f2⟩ := k.dataAt e2
    exact ⟨AudioEntry.kept e1 k, f2⟩
  | aac bs m av =>
    rw [hc] at e
    obtain ⟨e1, e2, e, es, ss, dc, ds, e3, e0, e4, s1, s2, e5, e6⟩ := e
    obtain ⟨_, _, f2⟩ := k.dataAt e2
    obtain ⟨env, _, f3⟩ := k.dataAt e3
    have f4 : ∃ e' es' ss' dc' ds', Spec.dataAt ["esds"] t' = some (.esds e') ∧ e'.toFullBox = ⟨0, 0, 0, 0⟩ ∧
        e'.descriptors = [.es es' ss', .decConfig dc' ds', .decSpecific [0x11, 0x90], .slConfig [2]] ∧
        Layout.declaredSize (.decConfig dc' ds') = 13 + (5 + 2) ∧
        Layout.declaredSize (.es es' ss') = 3 + (5 + Layout.declaredSize (.decConfig dc' ds')) + (5 + 1) ∧
        Spec.PlainES (a.params.track_id.setWidth 16) es' ∧ Spec.AudioConfig 0x40 bs m av dc' := by
      refine ⟨_, _, _, _, _, f3, e0, (congrArg (List.map (Descriptor.stored env.esds)) e4).trans rfl, ?_, ?_, ?_, e6⟩
      · exact (declared_decConfig env.esds dc ds (by omega)).trans s1
      · exact (declared_es env.esds es ss e5.2.2.1 (by omega)).trans (s2.trans 
          (congrArg (fun n => 3 + (5 + n) + (5 + 1)) (declared_decConfig env.esds dc ds (by omega)).symm))
      obtain ⟨q1, q2, q3, q4, q5, q6⟩ := e5
      refine ⟨q1, q2, q3, q4, q5, ?_⟩
      show (if es.url_flag = true then _ else _) = _
      rw [q3]; rfl
    exact ⟨AudioEntry.kept e1 k, f2, f4⟩
  | mp3 bs m av =>
    rw [hc] at e
    obtain ⟨e1, e, es, ss, dc, ds, e3, e0, e4, s1, s2, e5, e6⟩ := e
    obtain ⟨env, _, f3⟩ := k.dataAt e3
    have f4 : ∃ e' es' ss' dc' ds', Spec.dataAt ["esds"] t' = some (.esds e') ∧ e'.toFullBox = ⟨0, 0, 0, 0⟩ ∧
        e'.descriptors = [.es es' ss', .decConfig dc' ds', .slConfig [2]] ∧
        Layout.declaredSize (.decConfig dc' ds') = 13 ∧
        Layout.declaredSize (.es es' ss') = 3 + (5 + Layout.declaredSize (.decConfig dc' ds')) + (5 + 1) ∧
        Spec.PlainES 0 es' ∧ Spec.AudioConfig 0x6b bs m av dc' := by
      refine ⟨_, _, _, _, _, f3, e0, (congrArg (List.map (Descriptor.stored env.esds)) e4).trans rfl, ?_, ?_, ?_, e6⟩
      · exact (declared_decConfig env.esds dc ds (by omega)).trans s1
      · exact (declared_es env.esds es ss e5.2.2.1 (by omega)).trans (s2.trans 
          (congrArg (fun n => 3 + (5 + n) + (5 + 1)) (declared_decConfig env.esds dc ds (by omega)).symm))
      obtain ⟨q1, q2, q3, q4, q5, q6⟩ := e5
      refine ⟨q1, q2, q3, q4, q5, ?_⟩
      show (if es.url_flag = true then _ else _) = _
      rw [q3]; rfl
    exact ⟨AudioEntry.kept e1 k, f4⟩

theorem Parameters.kept {a : Spec.TrackAsked} {n : Nat} {t t' : Tree} (h : Spec.Parameters Spec.inObjects a n t) (k : Kept t t') :
    Spec.Parameters Spec.inFile a n t' := by
  constructor
  · obtain ⟨b, h1, h2, h3, h4, h5, h6, h7, h8, h9, h10⟩ := h.tkhd
    obtain ⟨env, ty, g⟩ := k.dataAt h1
    have hv : b.toFullBox.version = 0 := by rw [h2]
    refine ⟨_, g, h2, h3, ?_, ?_, ?_, h7, h8, h9, h10⟩
    · show keptTime b.toFullBox b.creation_time = _
      rw [kept0 _ _ hv, h4]; rfl
    · show keptTime b.toFullBox b.modification_time = _
      rw [kept0 _ _ hv, h5]; rfl
    · show keptTime b.toFullBox b.duration = _
      rw [kept0 _ _ hv, h6]; rfl
  · obtain ⟨b, h1, h2, h3⟩ := h.elst
    obtain ⟨env, ty, g⟩ := k.dataAt h1
    have hv : b.toFullBox.version = 0 := by rw [h2]
    refine ⟨_, g, h2, ?_⟩
    show List.map _ b.entries = _
    rw [h3, List.map_cons, List.map_nil]
    dsimp only
    rw [kept0 _ _ hv, keptS0 _ _ hv]; rfl
  · obtain ⟨b, h1, h2, h3, h4, h5, h6, h7⟩ := h.mdhd
    obtain ⟨env, ty, g⟩ := k.dataAt h1
    have hv : b.toFullBox.version = 0 := by rw [h2]
    refine ⟨_, g, h2, h3, ?_, ?_, ?_, h7⟩
    · show keptTime b.toFullBox b.duration = _
      rw [kept0 _ _ hv, h4]; rfl
    · show keptTime b.toFullBox b.creation_time = _
      rw [kept0 _ _ hv, h5]; rfl
    · show keptTime b.toFullBox b.modification_time = _
      rw [kept0 _ _ hv, h6]; rfl
  · obtain ⟨env, ty, g⟩ := k.dataAt h.hdlr
    exact g
  · have hh := h.header
    split at hh
    · rename_i hv
      rw [if_pos hv]
      obtain ⟨_, _, g⟩ := k.dataAt hh.1
      exact ⟨g, k.noneAt hh.2⟩
    · rename_i hv
      rw [if_neg hv]
      obtain ⟨_, _, g⟩ := k.dataAt hh.1
      exact ⟨g, k.noneAt hh.2⟩
  · obtain ⟨u, h1, h2, h3⟩ := h.dref
    obtain ⟨_, _, g1⟩ := k.dataAt h1
    obtain ⟨_, _, g2⟩ := k.dataAt h2
    refine ⟨_, g1, g2, ?_⟩
    unfold Url.stored
    split <;> exact h3
  · obtain ⟨d, entry, h1, h2, h3, h4⟩ := h.stsd
    rcases k.at_ (["mdia", "minf", "stbl", "stsd"].map fourcc) with ⟨c, c', k1, k2, k3⟩ | ⟨k1, k2⟩
    · rw [h1] at k1
      cases k1
      obtain ⟨env, g⟩ := k3.data
      have kl := k3.leafs
      rw [h3] at kl
      match hl : c'.leafs, kl with
      | [e'], kl =>
        exact ⟨c', e', k2, by rw [g, h2]; rfl, hl, Entry.kept h4 kl.1⟩
      | _ :: _ :: _, kl => exact absurd kl.2 (by simp [KeptList])
    · rw [h1] at k1; cases k1
  · intro r hr
    obtain ⟨g, s, h1, h2, h3, h4, h5, h6, h7, h8, h9⟩ := h.roll r hr
    obtain ⟨env, ty, g1⟩ := k.dataAt h1
    obtain ⟨env2, ty2, g2⟩ := k.dataAt h4
    refine ⟨_, _, g1, h2, ?_, g2, h5, h6, h7, ?_, h9⟩
    rotate_left
    · show (if g.version = 1 then g.default_length else _) = _
      rw [if_pos (by rw [show g.version = g.toFullBox.version from rfl, h7])]; exact h8
    show (if isRoll g.grouping_type then g.roll_distances else _) = _
    rw [h2, if_pos (by decide +kernel)]
    exact h3
  · intro hr
    obtain ⟨h1, h2⟩ := h.noRoll hr
    exact ⟨k.noneAt h1, k.noneAt h2⟩

theorem Movie.kept {ts : BitVec 32} {dur now : BitVec 64} {t t' : Tree} (h : Spec.Movie Spec.inObjects ts dur now t) (k : Kept t t') :
    Spec.Movie Spec.inFile ts dur now t' := by
  constructor
  · obtain ⟨b, h1, h2, h3, h4, h5, h6, h7, h8, h9⟩ := h.mvhd
    obtain ⟨env, ty, g⟩ := k.dataAt h1
    have hv : b.toFullBox.version = 0 := by rw [h2]
    refine ⟨_, g, h2, h3, ?_, ?_, ?_, h7, h8, h9⟩
    · show keptTime b.toFullBox b.duration = _
      rw [kept0 _ _ hv, h4]; rfl
    · show keptTime b.toFullBox b.creation_time = _
      rw [kept0 _ _ hv, h5]; rfl
    · show keptTime b.toFullBox b.modification_time = _
      rw [kept0 _ _ hv, h6]; rfl
  · obtain ⟨_, _, g1⟩ := k.dataAt h.meta_.1
    obtain ⟨_, _, g2⟩ := k.dataAt h.meta_.2
    exact ⟨g1, g2⟩
  · obtain ⟨u, h1, h2⟩ := h.tool
    rcases k.at_ _ with ⟨c, c', k1, k2, k3⟩ | ⟨k1, k2⟩
    · exact ⟨c', k2, by
        rw [h1] at k1
        cases k1
        obtain ⟨env, g⟩ := k3.data
        rw [g, h2]; rfl⟩
    · rw [h1] at k1; cases k1

mutual
theorem outline_kept : ∀ {t t' : Tree} (d : Nat), Kept t t' → Spec.outline d t' = Spec.outline d t
  | .node b p ls, .node b' p' ls', d, k => by
    rw [Spec.outline, Spec.outline, outlineList_kept (d + 1) k.2.2, k.1]
theorem outlineList_kept : ∀ {ts ts' : List Tree} (d : Nat), KeptList ts ts' → Spec.outlineList d ts' = Spec.outlineList d ts
  | [], [], _, _ => rfl
  | t :: ts, t' :: ts', d, k => by
    rw [Spec.outlineList, Spec.outlineList, outline_kept d k.1, outlineList_kept d k.2]
end

theorem MovieOutline.kept {calls : List Call} {t t' : Tree} (h : Spec.MovieOutline calls t) (k : Kept t t') :
    Spec.MovieOutline calls t' := by
  obtain ⟨w, h1, h2⟩ := h
  exact ⟨w, h1, by rw [outline_kept 0 k]; exact h2⟩

theorem EachTrak.kept {R R' : Spec.TrackAsked → List Sample → Tree → Prop} {calls : List Call} {es : List Event} {t t' : Tree}
    (h : Spec.EachTrak R calls es t) (k : Kept t t') (hR : ∀ a ss x x', R a ss x → Kept x x' → R' a ss x') :
    Spec.EachTrak R' calls es t' := by
  obtain ⟨h1, h2⟩ := h
  refine ⟨k.traks.length.trans h1, ?_⟩
  intro i a x' ha hx
  obtain ⟨x, hx1, hx2⟩ := k.traks.get hx
  exact hR _ _ _ _ (h2 i a x ha hx1) hx2

theorem trakSamples_kept {file : List Byte} : ∀ {ts ts' : List Tree} {xs : List (List (List Byte))}, KeptList ts ts' →
    ts.map (Spec.trakSamples file) = xs.map some → ts'.map (Spec.trakSamples file) = xs.map some
  | [], [], xs, _, h => h
  | t :: ts, t' :: ts', [], _, h => by cases h
  | t :: ts, t' :: ts', x :: xs, k, h => by
    rw [List.map_cons, List.map_cons] at h ⊢
    obtain ⟨h1, h2⟩ := List.cons.inj h
    rw [k.1.trakSamples file h1, trakSamples_kept k.2 h2]

end Mp4
