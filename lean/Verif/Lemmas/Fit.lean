import Verif.Lemmas.KeptMovie

/-! # The boxes the tracks and writers make survive a reader -/

namespace Mp4
open Tree

theorem fit_mk {ty : BoxType} {d : BoxData} {cs : List Mk} {p : List BoxType} (h1 : (stdBoxMap.find ty).map (·.factory) = some d.kind)
    (h2 : ty ≠ fourcc "wave") (h3 : ∀ env, d.Survives env ty (false = true) (cs = [])) (h4 : FitList (cs.map (· (p ++ [ty])))) :
    (mkInfo ty d cs p).Fit := by
  obtain ⟨x, hx1, hx2⟩ := Option.map_eq_some_iff.mp h1
  refine ⟨⟨⟨x, hx1, hx2⟩, h2, ?_⟩, h4⟩
  intro env
  have : (cs = []) = ((cs.map (· (p ++ [ty]))) = []) := by simp
  rw [← this]
  exact h3 env

macro "fit" : tactic => `(tactic| refine fit_mk (by dsimp only [BoxData.kind]; decide +kernel) (by decide +kernel) ?_ ?_)

theorem fitList_append (a b : List Tree) : FitList (a ++ b) ↔ FitList a ∧ FitList b := by
  induction a with
  | nil => simp [FitList]
  | cons t a ih => simp [FitList, ih, and_assoc]

theorem visual_fit (type : BoxType) (w h : BitVec 32) (cs : List Mk) (p : List BoxType)
    (ht : (stdBoxMap.find type).map (·.factory) = some Kind.visual) (hw : type ≠ fourcc "wave")
    (hc : FitList (cs.map (· (p ++ [type])))) : (mkInfo type (.visual (Codec.visualEntry type w h)) cs p).Fit :=
  fit_mk ht hw (fun _ => rfl) hc

theorem audio_fit (type : BoxType) (rate : BitVec 32) (cs : List Mk) (p : List BoxType)
    (ht : (stdBoxMap.find type).map (·.factory) = some Kind.audio) (hw : type ≠ fourcc "wave")
    (hc : FitList (cs.map (· (p ++ [type])))) : (mkInfo type (.audio (Codec.audioEntry type rate)) cs p).Fit :=
  fit_mk ht hw (fun _ => ⟨rfl, by decide, .inl ⟨rfl, .inr rfl⟩⟩) hc

/-- The configuration of the codec fits its boxes. -/
def CodecSmall : Codec → Prop
  | .h264 _ _ c => (c.sequence_parameter_sets.length < 32 ∧ ∀ n ∈ c.sequence_parameter_sets, n.length < 2 ^ 16) ∧
      (c.picture_parameter_sets.length < 256 ∧ ∀ n ∈ c.picture_parameter_sets, n.length < 2 ^ 16)
  | .vpx .. => True
  | .av1 _ _ cfg => cfg.seq_profile.toNat < 2 ^ 3 ∧ cfg.seq_level_idx_0.toNat < 2 ^ 5 ∧ cfg.seq_tier_0.toNat < 2 ∧
      cfg.chroma_subsampling_x.toNat < 2 ∧ cfg.chroma_subsampling_y.toNat < 2 ∧ cfg.chroma_sample_position.toNat < 2 ^ 2
  | .opus .. => True
  | .aac bufferSize _ _ | .mp3 bufferSize _ _ => bufferSize.toNat < 2 ^ 24

theorem Follows.small {a : Spec.TrackAsked} {t : Track} (h : Follows a t) (hc : Spec.CodecFits a) : CodecSmall t.codec := by
  obtain ⟨-, -, -, -, -, -, h⟩ := h
  unfold CodecFollows at h
  unfold Spec.CodecFits at hc
  cases ha : a.codec <;> rw [ha] at h hc
  · obtain ⟨cfg', h1, h2⟩ := h
    obtain ⟨uss, k1, k2, k3⟩ := hc
    rw [h1, CodecSmall, h2 uss k1 k2]
    exact k3
  all_goals (dsimp only at h; rw [h]; exact hc)

theorem esds_fit (fb : FullBox) (ds : List Descriptor) (p : List BoxType) (h : ∀ x ∈ ds, x.UrlOk ∧ x.Fits) :
    (mkInfo (fourcc "esds") (.esds ⟨fb, ds⟩) [] p).Fit := by
  fit
  · intro env; exact ⟨rfl, h⟩
  · trivial

theorem stsd_fit (c : Codec) (id ts : BitVec 32) (p : List BoxType) (h : CodecSmall c) : (c.stsd id ts p).Fit := by
  unfold Codec.stsd
  fit
  · intro env; trivial
  refine ⟨?_, trivial⟩
  cases c with
  | h264 w hh cfg =>
    refine visual_fit _ _ _ _ _ (by decide +kernel) (by decide +kernel) ⟨?_, trivial⟩
    fit
    · intro env
      exact ⟨rfl, ⟨(by decide : 63 < 2 ^ 6), (by decide : 3 < 2 ^ 2), (by decide : 7 < 2 ^ 3)⟩, h.1, h.2, fun hh => by cases hh⟩
    · trivial
  | vpx vp8 w hh m av =>
    have hv : ∀ ty : BoxType, (stdBoxMap.find ty).map (·.factory) = some Kind.visual → ty ≠ fourcc "wave" → ∀ q,
        (mkInfo ty (.visual (Codec.visualEntry ty w hh))
        [mkInfo (fourcc "vpcC") (.vpcC ⟨⟨1, 0, 0, 0⟩, 0, 21, 8, 1, 0, 2, 2, 2, []⟩) [],
         mkInfo (fourcc "fiel") (.fiel ⟨1, 0⟩) [],
         mkInfo (fourcc "pasp") (.pasp ⟨1, 1⟩) [],
         mkInfo (fourcc "btrt") (.btrt ⟨0, m, av⟩) []] q).Fit := by
      intro ty h1 h2 q
      refine visual_fit _ _ _ _ _ h1 h2 ⟨?_, ?_, ?_, ?_, trivial⟩
      · fit
        · intro env; exact ⟨by decide, by decide, fun _ => rfl⟩
        · trivial
      · fit
        · intro env; trivial
        · trivial
      · fit
        · intro env; trivial
        · trivial
      · fit
        · intro env; trivial
        · trivial
    cases vp8
    · exact hv (fourcc "vp09") (by decide +kernel) (by decide +kernel) _
    · exact hv (fourcc "vp08") (by decide +kernel) (by decide +kernel) _
  | av1 w hh cfg =>
    obtain ⟨k1, k2, k3, k4, k5, k6⟩ := h
    refine visual_fit _ _ _ _ _ (by decide +kernel) (by decide +kernel) ⟨?_, trivial⟩
    fit
    · intro env
      exact ⟨rfl, (by decide : 1 < 2 ^ 1), (by decide : 1 < 2 ^ 7), k1, k2, k3, k4, k5, k6, (by decide : 0 < 2 ^ 3), (by decide : 0 < 2 ^ 4)⟩
    · trivial
  | opus ps r =>
    refine audio_fit _ _ _ _ (by decide +kernel) (by decide +kernel) ⟨?_, trivial⟩
    fit
    · intro env; exact ⟨fun hc => absurd rfl hc, fun _ => ⟨rfl, rfl, rfl⟩⟩
    · trivial
  | aac bs m av =>
    refine audio_fit _ _ _ _ (by decide +kernel) (by decide +kernel) ⟨?_, ?_, trivial⟩
    · refine esds_fit _ _ _ ?_
      intro x hx
      unfold Codec.aacDescriptors at hx
      simp only [List.mem_cons, List.not_mem_nil, or_false] at hx
      rcases hx with rfl | rfl | rfl | rfl
      · refine ⟨(fun hu => nomatch hu), ?_, ?_⟩
        · simp [Layout.esOwnSize, Codec.esFields, Layout.nestedSize, Layout.declaredSize, Codec.decConfig, Layout.flatSize]
        · simp [Codec.esFields, SFits]
      · refine ⟨trivial, ?_, ?_, h⟩
        · simp [Layout.declaredSize, Codec.decConfig, Layout.flatSize]
        · simp [Codec.decConfig, SFits]
      · exact ⟨trivial, by simp [Layout.declaredSize], trivial⟩
      · exact ⟨trivial, by simp [Layout.declaredSize], trivial⟩
    · fit
      · intro env; trivial
      · trivial
  | mp3 bs m av =>
    refine audio_fit _ _ _ _ (by decide +kernel) (by decide +kernel) ⟨?_, trivial⟩
    refine esds_fit _ _ _ ?_
    intro x hx
    unfold Codec.mp3Descriptors at hx
    simp only [List.mem_cons, List.not_mem_nil, or_false] at hx
    rcases hx with rfl | rfl | rfl
    · refine ⟨(fun hu => nomatch hu), ?_, ?_⟩
      · simp [Layout.esOwnSize, Codec.esFields, Layout.nestedSize, Layout.declaredSize, Codec.decConfig]
      · simp [Codec.esFields, SFits]
    · refine ⟨trivial, ?_, ?_, h⟩
      · simp [Layout.declaredSize, Codec.decConfig]
      · simp [Codec.decConfig, SFits]
    · exact ⟨trivial, by simp [Layout.declaredSize], trivial⟩

theorem offsets_fit (t : Track) (p : List BoxType) (h : t.chunk_infos.length < 2 ^ 32) : (t.offsets p).Fit := by
  have h1 : (mkInfo (fourcc "co64") (.co64 ⟨version0, t.chunk_infos.map (·.offset)⟩) [] p).Fit := by
    fit
    · intro env; show List.length (List.map _ _) < _; rw [List.length_map]; exact h
    · trivial
  have h2 : (mkInfo (fourcc "stco") (.stco ⟨version0, t.chunk_infos.map (·.offset.setWidth 32)⟩) [] p).Fit := by
    fit
    · intro env; show List.length (List.map _ _) < _; rw [List.length_map]; exact h
    · trivial
  unfold Track.offsets make_offset_box
  dsimp only
  cases t.chunk_infos.getLast? with
  | none => exact h2
  | some l =>
    dsimp only
    split
    · exact h1
    · exact h2

theorem mediaHeader_fit (t : Track) (p : List BoxType) : (t.mediaHeader p).Fit := by
  unfold Track.mediaHeader
  cases t.codec.handler
  · dsimp only
    fit
    · intro env; trivial
    · trivial
  · dsimp only
    fit
    · intro env; trivial
    · trivial

theorem sttsGo_length (ds : List (BitVec 32)) : ∀ d c, (sttsGo d c ds).length ≤ ds.length + 1 := by
  induction ds with
  | nil => intro d c; unfold sttsGo; split <;> simp
  | cons x ds ih =>
    intro d c
    unfold sttsGo
    split
    · have := ih d (c + 1); simp only [List.length_cons]; omega
    · have := ih x 1; simp only [List.length_cons]; omega

theorem stts_length (ds : List (BitVec 32)) : (make_stts_entries ds).length ≤ ds.length := by
  cases ds with
  | nil => exact Nat.le_refl _
  | cons d ds => exact sttsGo_length ds d 1

theorem stscGo_length (cs : List ChunkInfo) : ∀ s k, (stscGo s k cs).length ≤ cs.length := by
  induction cs with
  | nil => intro s k; exact Nat.le_refl _
  | cons c cs ih =>
    intro s k
    unfold stscGo
    split
    · have := ih c.number_of_samples.toNat (k + 1); simp only [List.length_cons]; omega
    · have := ih s (k + 1); simp only [List.length_cons]; omega

/-- The tables of the track are countable in 32 bits. -/
structure Track.Small (t : Track) : Prop where
  codec : CodecSmall t.codec
  chunks : t.chunk_infos.length < 2 ^ 32
  sizes : t.mdat_sample_sizes.length < 2 ^ 32
  durations : t.sample_durations.length < 2 ^ 32
  keys : t.key_sample_numbers.length < 2 ^ 32

theorem stbl_fit (t : Track) (h : t.Small) (p : List BoxType) : FitList (t.stblChildren.map (· p)) := by
  have e1 := stsd_fit t.codec t.track_id t.timescale p h.codec
  have e2 := offsets_fit t p h.chunks
  have e3 : (t.stts p).Fit := by
    unfold Track.stts
    fit
    · intro env; exact Nat.lt_of_le_of_lt (stts_length _) h.durations
    · trivial
  have e4 : (t.stss p).Fit := by
    unfold Track.stss
    fit
    · intro env; exact h.keys
    · trivial
  have e5 : (t.stsc p).Fit := by
    unfold Track.stsc
    fit
    · intro env; exact Nat.lt_of_le_of_lt (stscGo_length _ _ _) h.chunks
    · trivial
  have e6 : (t.stsz p).Fit := by
    unfold Track.stsz
    fit
    · intro env; exact fun _ => h.sizes
    · trivial
  have e7 : ∀ r, FitList ((t.rollGroups r).map (· p)) := by
    intro r
    unfold Track.rollGroups
    refine ⟨?_, ?_, trivial⟩
    · fit
      · intro env
        refine ⟨fun _ => ⟨(by decide : 1 < 2 ^ 32), ?_⟩, fun hc => absurd hc (by dsimp only; decide +kernel), fun hc => absurd hc (by dsimp only; decide +kernel),
          fun hc => absurd hc (by dsimp only; decide +kernel)⟩
        intro e he
        simp only [List.mem_cons, List.not_mem_nil, or_false] at he
        subst he
        exact ⟨by dsimp only; decide, fun _ => rfl⟩
      · trivial
    · fit
      · intro env; exact (by decide : 1 < 2 ^ 32)
      · trivial
  unfold Track.stblChildren
  dsimp only
  cases hc : t.codec <;> rw [hc] at e1 <;> dsimp only
  · exact ⟨e1, e3, e4, e5, e6, e2, trivial⟩
  · exact ⟨e1, e3, e4, e5, e6, e2, trivial⟩
  · exact ⟨e1, e3, e4, e5, e6, e2, trivial⟩
  · rw [List.map_append, fitList_append]
    exact ⟨⟨e1, e3, e5, e6, e2, trivial⟩, e7 _⟩
  · rw [List.map_append, fitList_append]
    exact ⟨⟨e1, e3, e5, e6, e2, trivial⟩, e7 _⟩
  · exact ⟨e1, e3, e5, e6, e2, trivial⟩

theorem trak_fit (t : Track) (h : t.Small) (p : List BoxType) : (t.trak p).Fit := by
  unfold Track.trak
  fit
  · intro env; trivial
  refine ⟨?_, ?_, ?_, trivial⟩
  · fit
    · intro env; trivial
    · trivial
  · fit
    · intro env; trivial
    refine ⟨?_, trivial⟩
    fit
    · intro env; exact (by decide : 1 < 2 ^ 32)
    · trivial
  fit
  · intro env; trivial
  refine ⟨?_, ?_, ?_, trivial⟩
  · fit
    · intro env
      show LangOk ⟨0x75, 0x6e, 0x64⟩
      unfold LangOk
      decide
    · trivial
  · fit
    · intro env
      refine ⟨rfl, rfl, rfl, ?_⟩
      show ∀ c ∈ shiguredoMp4, c ≠ 0
      decide
    · trivial
  fit
  · intro env; trivial
  refine ⟨mediaHeader_fit t _, ?_, ?_, trivial⟩
  · unfold Track.dinf
    fit
    · intro env; trivial
    refine ⟨?_, trivial⟩
    fit
    · intro env; trivial
    refine ⟨?_, trivial⟩
    fit
    · intro env c hc; cases hc
    · trivial
  fit
  · intro env; trivial
  exact stbl_fit t h _

theorem udta_fit (p : List BoxType) : (udta p).Fit := by
  unfold udta
  fit
  · intro env; trivial
  refine ⟨?_, trivial⟩
  fit
  · intro env; trivial
  refine ⟨?_, ?_, trivial⟩
  · fit
    · intro env
      refine ⟨rfl, rfl, rfl, ?_⟩
      intro c hc; cases hc
    · trivial
  fit
  · intro env; trivial
  refine ⟨?_, trivial⟩
  fit
  · intro env; trivial
  refine ⟨?_, trivial⟩
  fit
  · intro env; exact rfl
  · trivial

theorem moov_fit (m : Mvhd) (tracks : List Track) (h : ∀ t ∈ tracks, t.Small) : (moovTree m tracks).Fit := by
  have hm : (mkInfo (fourcc "mvhd") (.mvhd m) [] [fourcc "moov"]).Fit := by
    fit
    · intro env; trivial
    · trivial
  have hl : FitList (tracks.map (·.trak [fourcc "moov"])) := by
    induction tracks with
    | nil => trivial
    | cons t ts ih => exact ⟨trak_fit t (h t (by simp)) _, ih fun u hu => h u (by simp [hu])⟩
  have hc : FitBox { type := fourcc "moov", data := .empty } False := by
    refine ⟨?_, by decide +kernel, fun _ => trivial⟩
    exact ⟨⟨.empty, []⟩, by decide +kernel, rfl⟩
  refine ⟨⟨hc.1, hc.2.1, fun _ => trivial⟩, hm, ?_⟩
  rw [fitList_append]
  exact ⟨hl, udta_fit _, trivial⟩

end Mp4
