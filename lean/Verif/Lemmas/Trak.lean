import Verif.Lemmas.Asked
import Verif.Lemmas.Moov
import Verif.Props.Track

/-! # What the `trak` box of a track says -/

namespace Mp4

/-- Whether the chunk offsets need 64 bits. -/
def Track.wide (t : Track) : Bool :=
  match t.chunk_infos.getLast? with
  | none => false
  | some last => decide (last.offset > 0xffffffff#64)

theorem Track.offsets_wide (t : Track) (q : List BoxType) : t.offsets q = if t.wide = true then
      mkInfo (fourcc "co64") (.co64 ⟨version0, t.chunk_infos.map (·.offset)⟩) [] q
    else mkInfo (fourcc "stco") (.stco ⟨version0, t.chunk_infos.map (·.offset.setWidth 32)⟩) [] q := by
  have h : make_offset_box t.chunk_infos = if t.wide = true then
      { type := fourcc "co64", data := .co64 ⟨version0, t.chunk_infos.map (·.offset)⟩ }
    else { type := fourcc "stco", data := .stco ⟨version0, t.chunk_infos.map (·.offset.setWidth 32)⟩ } := rfl
  unfold Track.offsets
  rw [h]
  split <;> rfl

theorem child_nil (ty t0 : BoxType) (d : BoxData) (p : List BoxType) : Spec.child ty (mkInfo t0 d [] p) = none := rfl

theorem child_cons_eq {ty t0 : BoxType} (d : BoxData) (c : Mk) (cs : List Mk) (p : List BoxType)
    (h : (c (p ++ [t0])).box.type = ty) : Spec.child ty (mkInfo t0 d (c :: cs) p) = some (c (p ++ [t0])) := by
  unfold Spec.child
  rw [mkInfo_leafs, List.map_cons, List.find?_cons_of_pos (by simpa using h)]

theorem child_cons_ne {ty t0 : BoxType} (d : BoxData) (c : Mk) (cs : List Mk) (p : List BoxType)
    (h : (c (p ++ [t0])).box.type ≠ ty) : Spec.child ty (mkInfo t0 d (c :: cs) p) = Spec.child ty (mkInfo t0 d cs p) := by
  unfold Spec.child
  rw [mkInfo_leafs, List.map_cons, List.find?_cons_of_neg (by simpa using h)]
  rfl

theorem at_nil (t : Tree) : Spec.at_ [] t = some t := rfl
theorem at_cons (ty : BoxType) (tys : List BoxType) (t : Tree) : Spec.at_ (ty :: tys) t = (Spec.child ty t).bind (Spec.at_ tys) := rfl

/-- Go to a child that is not the first one. -/
theorem at_ne {ty t0 : BoxType} (tys : List BoxType) (d : BoxData) (c : Mk) (cs : List Mk) (p : List BoxType)
    (h : (c (p ++ [t0])).box.type ≠ ty) : Spec.at_ (ty :: tys) (mkInfo t0 d (c :: cs) p) = Spec.at_ (ty :: tys) (mkInfo t0 d cs p) := by
  rw [at_cons, child_cons_ne d c cs p h, at_cons]

theorem at_eq {ty t0 : BoxType} (tys : List BoxType) (d : BoxData) (c : Mk) (cs : List Mk) (p : List BoxType)
    (h : (c (p ++ [t0])).box.type = ty) : Spec.at_ (ty :: tys) (mkInfo t0 d (c :: cs) p) = Spec.at_ tys (c (p ++ [t0])) := by
  rw [at_cons, child_cons_eq d c cs p h]; rfl

theorem at_none {ty t0 : BoxType} (tys : List BoxType) (d : BoxData) (p : List BoxType) :
    Spec.at_ (ty :: tys) (mkInfo t0 d [] p) = none := rfl

/-- Two four-character codes differ. -/
macro "fcne" : tactic => `(tactic| (show fourcc _ ≠ fourcc _; decide +kernel))

theorem at_minf (tys : List BoxType) (t : Track) (p : List BoxType) :
    Spec.at_ (fourcc "mdia" :: fourcc "minf" :: tys) (t.trak p) = Spec.at_ tys (mkInfo (fourcc "minf") .empty
      [t.mediaHeader, Track.dinf, mkInfo (fourcc "stbl") .empty t.stblChildren] (p ++ [fourcc "trak"] ++ [fourcc "mdia"])) := by
  unfold Track.trak
  rw [at_ne _ _ _ _ _ (by fcne), at_ne _ _ _ _ _ (by fcne), at_eq _ _ _ _ _ (by rfl), at_ne _ _ _ _ _ (by fcne),
    at_ne _ _ _ _ _ (by fcne), at_eq _ _ _ _ _ (by rfl)]

theorem header_type (t : Track) (q : List BoxType) :
    (t.mediaHeader q).box.type = if t.codec.handler = .vide then fourcc "vmhd" else fourcc "smhd" := by
  unfold Track.mediaHeader
  cases t.codec.handler <;> rfl

theorem header_ne (t : Track) (q : List BoxType) (ty : BoxType) (h1 : fourcc "vmhd" ≠ ty) (h2 : fourcc "smhd" ≠ ty) :
    (t.mediaHeader q).box.type ≠ ty := by
  rw [header_type]
  split
  · exact h1
  · exact h2

theorem at_stbl (tys : List BoxType) (t : Track) (p : List BoxType) : ∃ q,
    Spec.at_ (fourcc "mdia" :: fourcc "minf" :: fourcc "stbl" :: tys) (t.trak p) =
      Spec.at_ tys (mkInfo (fourcc "stbl") .empty t.stblChildren q) := by
  refine ⟨p ++ [fourcc "trak"] ++ [fourcc "mdia"] ++ [fourcc "minf"], ?_⟩
  rw [at_minf, at_ne _ _ _ _ _ (header_ne _ _ _ (by fcne) (by fcne)), at_ne _ _ _ _ _ (by fcne), at_eq _ _ _ _ _ (by rfl)]

theorem at_dinf (tys : List BoxType) (t : Track) (p : List BoxType) : ∃ q,
    Spec.at_ (fourcc "mdia" :: fourcc "minf" :: fourcc "dinf" :: tys) (t.trak p) = Spec.at_ tys (Track.dinf q) := by
  refine ⟨p ++ [fourcc "trak"] ++ [fourcc "mdia"] ++ [fourcc "minf"], ?_⟩
  rw [at_minf, at_ne _ _ _ _ _ (header_ne _ _ _ (by fcne) (by fcne)), at_eq _ _ _ _ _ (by rfl)]

theorem offsets_ne (t : Track) (q : List BoxType) (ty : BoxType) (h1 : fourcc "stco" ≠ ty) (h2 : fourcc "co64" ≠ ty) :
    (t.offsets q).box.type ≠ ty := by
  rcases offsets_type t q with h | h <;> rw [h] <;> assumption

theorem handler_video (c : Codec) : c.handler = .vide ↔ Spec.CodecIsVideo c = true := by
  cases c <;> simp [Codec.handler, Spec.CodecIsVideo]

/-- The tables. -/
theorem stbl_table_stts (t : Track) (p : List BoxType) :
    Spec.dataAt ["mdia", "minf", "stbl", "stts"] (t.trak p) = some (.stts ⟨version0, make_stts_entries t.sample_durations⟩) ∧
    Spec.dataAt ["mdia", "minf", "stbl", "stsz"] (t.trak p) = some (.stsz ⟨version0, 0, t.mdat_sample_sizes⟩) ∧
    (if Spec.CodecIsVideo t.codec then
      Spec.dataAt ["mdia", "minf", "stbl", "stss"] (t.trak p) = some (.stss ⟨version0, t.key_sample_numbers⟩)
     else Spec.noneAt ["mdia", "minf", "stbl", "stss"] (t.trak p)) ∧
    (∀ r, Spec.rollDistance t.codec = some r →
      Spec.dataAt ["mdia", "minf", "stbl", "sgpd"] (t.trak p) = some (.sgpd
        { version := 1, f0 := 0, f1 := 0, f2 := 0, grouping_type := fourcc "roll", default_length := 2,
          default_sample_description_index := 0, roll_distances := [⟨0, r, false⟩],
          alternative_startup_entries := [], visual_random_access_entries := [], temporal_level_entries := [] }) ∧
      Spec.dataAt ["mdia", "minf", "stbl", "sbgp"] (t.trak p) = some (.sbgp
        { version := 0, f0 := 0, f1 := 0, f2 := 0, grouping_type := fourcc "roll", grouping_type_parameter := 0,
          entries := [⟨BitVec.ofNat 32 t.mdat_sample_sizes.length, 1⟩] })) ∧
    (Spec.rollDistance t.codec = none → Spec.noneAt ["mdia", "minf", "stbl", "sgpd"] (t.trak p) ∧
      Spec.noneAt ["mdia", "minf", "stbl", "sbgp"] (t.trak p)) ∧
    ∃ q, Spec.at_ (["mdia", "minf", "stbl", "stsd"].map fourcc) (t.trak p) = some (t.codec.stsd t.track_id t.timescale q) := by
  have o1 : ∀ q, (t.offsets q).box.type ≠ fourcc "stss" := fun q => offsets_ne t q _ (by fcne) (by fcne)
  have o2 : ∀ q, (t.offsets q).box.type ≠ fourcc "sgpd" := fun q => offsets_ne t q _ (by fcne) (by fcne)
  have o3 : ∀ q, (t.offsets q).box.type ≠ fourcc "sbgp" := fun q => offsets_ne t q _ (by fcne) (by fcne)
  have dc : ∀ x, ∃ q, Spec.dataAt ["mdia", "minf", "stbl", x] (t.trak p) = (Spec.at_ [fourcc x] (mkInfo (fourcc "stbl") .empty t.stblChildren q)).map (·.box.data) := by
    intro x
    obtain ⟨q, hq⟩ := at_stbl [fourcc x] t p
    exact ⟨q, by unfold Spec.dataAt; exact congrArg (Option.map fun x : Tree => x.box.data) hq⟩
  have nc : ∀ x, ∃ q, Spec.noneAt ["mdia", "minf", "stbl", x] (t.trak p) ↔ Spec.at_ [fourcc x] (mkInfo (fourcc "stbl") .empty t.stblChildren q) = none := by
    intro x
    obtain ⟨q, hq⟩ := at_stbl [fourcc x] t p
    exact ⟨q, by unfold Spec.noneAt; exact iff_of_eq (congrArg (· = none) hq)⟩
  obtain ⟨q1, e1⟩ := dc "stts"
  obtain ⟨q2, e2⟩ := dc "stsz"
  obtain ⟨q3, e3⟩ := dc "stss"
  obtain ⟨q4, e4⟩ := nc "stss"
  obtain ⟨q5, e5⟩ := dc "sgpd"
  obtain ⟨q6, e6⟩ := dc "sbgp"
  obtain ⟨q7, e7⟩ := nc "sgpd"
  obtain ⟨q8, e8⟩ := nc "sbgp"
  obtain ⟨q9, e9⟩ := at_stbl [fourcc "stsd"] t p
  rw [e1, e2, e3, e4, e5, e6, e7, e8, show (["mdia", "minf", "stbl", "stsd"].map fourcc) =
    [fourcc "mdia", fourcc "minf", fourcc "stbl", fourcc "stsd"] from rfl, e9]
  clear e1 e2 e3 e4 e5 e6 e7 e8 e9 dc nc
  have hsd : ∀ q, (t.codec.stsd t.track_id t.timescale q).box.type = fourcc "stsd" := fun q => rfl
  unfold Track.stblChildren
  cases hc : t.codec
  all_goals rw [hc] at hsd
  all_goals dsimp only [Track.rollGroups, List.cons_append, List.nil_append]
  all_goals refine ⟨?_, ?_, ?_, ?_, ?_, ⟨q9 ++ [fourcc "stbl"], ?_⟩⟩
  all_goals try simp only [Spec.CodecIsVideo, Spec.rollDistance, if_true, Bool.false_eq_true, if_false, reduceCtorEq, Option.some.injEq,
    false_imp_iff, true_imp_iff, forall_eq', implies_true]
  all_goals try apply And.intro
  all_goals (repeat (first
    | rw [at_ne _ _ _ _ _ (by fcne)]
    | rw [at_ne _ _ _ _ _ (by first | exact o1 _ | exact o2 _ | exact o3 _)]
    | rw [at_eq _ _ _ _ _ (by rfl)]))
  all_goals rfl

theorem stbl_table_stsc (t : Track) (p : List BoxType) :
    Spec.dataAt ["mdia", "minf", "stbl", "stsc"] (t.trak p) = some (.stsc ⟨version0, make_stsc_entries t.chunk_infos⟩) := by
  obtain ⟨q, hq⟩ := at_stbl [fourcc "stsc"] t p
  unfold Spec.dataAt
  refine (congrArg (Option.map fun x : Tree => x.box.data) hq).trans ?_
  unfold Track.stblChildren
  cases t.codec
  all_goals dsimp only [Track.rollGroups, List.cons_append, List.nil_append]
  all_goals (repeat (first
    | rw [at_ne _ _ _ _ _ (by fcne)]
    | rw [at_eq _ _ _ _ _ (by rfl)]))
  all_goals rfl

theorem stbl_table_offsets (t : Track) (p : List BoxType) :
    (∃ x, Spec.dataAt ["mdia", "minf", "stbl", "stco"] (t.trak p) = some (.stco ⟨version0, x⟩)) ∨
    (∃ x, Spec.dataAt ["mdia", "minf", "stbl", "co64"] (t.trak p) = some (.co64 ⟨version0, x⟩)) := by
  have key : ∀ ty : String, (∀ q, (t.offsets q).box.type = fourcc ty) → fourcc "stsd" ≠ fourcc ty → fourcc "stts" ≠ fourcc ty →
      fourcc "stss" ≠ fourcc ty → fourcc "stsc" ≠ fourcc ty → fourcc "stsz" ≠ fourcc ty →
      ∃ q, Spec.dataAt ["mdia", "minf", "stbl", ty] (t.trak p) = some (t.offsets q).box.data := by
    intro ty h0 h1 h2 h3 h4 h5
    obtain ⟨q, hq⟩ := at_stbl [fourcc ty] t p
    refine ⟨q ++ [fourcc "stbl"], ?_⟩
    unfold Spec.dataAt
    refine (congrArg (Option.map fun x : Tree => x.box.data) hq).trans ?_
    unfold Track.stblChildren
    cases t.codec
    all_goals dsimp only [Track.rollGroups, List.cons_append, List.nil_append]
    all_goals (repeat (first
      | rw [at_ne _ _ _ _ _ (by first | exact h1 | exact h2 | exact h3 | exact h4 | exact h5)]
      | rw [at_eq _ _ _ _ _ (h0 _)]))
    all_goals rfl
  by_cases hw : t.wide = true
  · have h0 : ∀ q, t.offsets q = mkInfo (fourcc "co64") (.co64 ⟨version0, t.chunk_infos.map (·.offset)⟩) [] q :=
      fun q => by rw [t.offsets_wide q, if_pos hw]
    obtain ⟨q, hq⟩ := key "co64" (fun q => by rw [h0]; rfl) (by fcne) (by fcne) (by fcne) (by fcne) (by fcne)
    exact .inr ⟨_, by rw [hq, h0]; rfl⟩
  · have h0 : ∀ q, t.offsets q = mkInfo (fourcc "stco") (.stco ⟨version0, t.chunk_infos.map (·.offset.setWidth 32)⟩) [] q :=
      fun q => by rw [t.offsets_wide q, if_neg hw]
    obtain ⟨q, hq⟩ := key "stco" (fun q => by rw [h0]; rfl) (by fcne) (by fcne) (by fcne) (by fcne) (by fcne)
    exact .inl ⟨_, by rw [hq, h0]; rfl⟩

theorem Follows.handler {a : Spec.TrackAsked} {t : Track} (h : Follows a t) : Spec.CodecIsVideo t.codec = Spec.CodecIsVideo a.codec := by
  have h7 := h.2.2.2.2.2.2
  unfold CodecFollows at h7
  cases hc : a.codec <;> rw [hc] at h7
  · obtain ⟨cfg', h7, -⟩ := h7
    rw [h7]; rfl
  all_goals rw [h7]

theorem Follows.roll {a : Spec.TrackAsked} {t : Track} (h : Follows a t) : Spec.rollDistance t.codec = Spec.rollDistance a.codec := by
  have h7 := h.2.2.2.2.2.2
  unfold CodecFollows at h7
  cases hc : a.codec <;> rw [hc] at h7
  · obtain ⟨cfg', h7, -⟩ := h7
    rw [h7]; rfl
  all_goals rw [h7]

theorem Follows.finalize {a : Spec.TrackAsked} {t : Track} (h : Follows a t) : Follows a t.finalize := by
  unfold Follows Track.finalize at *
  split <;> exact h

theorem visualEntry_spec (type : String) (w h : BitVec 32) (cs : List Mk) (p : List BoxType) :
    Spec.VisualEntry type w h (mkInfo (fourcc type) (.visual (Codec.visualEntry (fourcc type) w h)) cs p) :=
  ⟨rfl, rfl⟩

theorem audioEntry_spec (type : String) (rate : BitVec 32) (cs : List Mk) (p : List BoxType) :
    Spec.AudioEntry type rate (mkInfo (fourcc type) (.audio (Codec.audioEntry (fourcc type) rate)) cs p) :=
  ⟨rfl, _, rfl, rfl, rfl, rfl, rfl, rfl, rfl, rfl, rfl, rfl, rfl, rfl⟩

theorem dataAt_one (x : String) (t : Tree) : Spec.dataAt [x] t = (Spec.at_ [fourcc x] t).map (·.box.data) := rfl

theorem entry_spec {a : Spec.TrackAsked} {t : Track} (h : Follows a t) (q : List BoxType) :
    ∃ entry, (t.codec.stsd t.track_id t.timescale q).leafs = [entry] ∧ Spec.Entry a entry := by
  obtain ⟨h1, -, -, -, -, h6, h7⟩ := h
  refine ⟨_, rfl, ?_⟩
  unfold CodecFollows at h7
  unfold Spec.Entry
  unfold Spec.timescaleOf at h1
  cases hc : a.codec <;> rw [hc] at h7 h1
  case h264 w h cfg =>
    obtain ⟨cfg', h7, h8⟩ := h7
    rw [h7]
    refine ⟨visualEntry_spec _ _ _ _ _, Codec.avcC cfg', ?_, rfl, rfl, rfl, rfl, ?_⟩
    · rw [dataAt_one, at_eq _ _ _ _ _ (by rfl)]; rfl
    · exact h8
  all_goals (rw [h7])
  case vpx vp8 w h m av =>
    cases vp8
    all_goals refine ⟨visualEntry_spec _ _ _ _ _, ?_, ?_, ?_, ?_⟩
    all_goals dsimp only
    all_goals rw [dataAt_one]
    all_goals (repeat (first
      | rw [at_ne _ _ _ _ _ (by fcne)]
      | rw [at_eq _ _ _ _ _ (by rfl)]))
    all_goals rfl
  case av1 w h cfg =>
    refine ⟨visualEntry_spec _ _ _ _ _, ?_⟩
    rw [dataAt_one, at_eq _ _ _ _ _ (by rfl)]; rfl
  case opus pre roll =>
    refine ⟨audioEntry_spec _ _ _ _, ?_⟩
    rw [dataAt_one, at_eq _ _ _ _ _ (by rfl)]; rfl
  case aac b m av =>
    dsimp only at h1
    refine ⟨?_, ?_, ⟨version0, Codec.aacDescriptors t.track_id b m av⟩, _, _, _, _, ?_, rfl, rfl, rfl, rfl, ?_, ?_⟩
    · rw [← h1]; exact audioEntry_spec _ _ _ _
    · dsimp only
      rw [dataAt_one, at_ne _ _ _ _ _ (by fcne), at_eq _ _ _ _ _ (by rfl)]; rfl
    · rw [dataAt_one, at_eq _ _ _ _ _ (by rfl)]; rfl
    · refine ⟨?_, rfl, rfl, rfl, rfl, rfl⟩
      show (0xffff#32 &&& t.track_id).setWidth 16 = _
      rw [h6]
      apply BitVec.eq_of_toNat_eq
      rw [BitVec.toNat_setWidth, BitVec.toNat_setWidth, BitVec.toNat_and, show (0xffff#32).toNat = 2 ^ 16 - 1 from rfl, Nat.and_comm,
        Nat.and_two_pow_sub_one_eq_mod, Nat.mod_mod]
    · exact ⟨rfl, rfl, rfl, rfl, rfl, rfl, rfl⟩
  case mp3 b m av =>
    dsimp only at h1
    refine ⟨?_, ⟨version0, Codec.mp3Descriptors b m av⟩, _, _, _, _, ?_, rfl, rfl, rfl, rfl, ?_, ?_⟩
    · rw [← h1]; exact audioEntry_spec _ _ _ _
    · dsimp only
      rw [dataAt_one, at_eq _ _ _ _ _ (by rfl)]; rfl
    · exact ⟨rfl, rfl, rfl, rfl, rfl, rfl⟩
    · exact ⟨rfl, rfl, rfl, rfl, rfl, rfl, rfl⟩

theorem presentation_eq {a : Spec.TrackAsked} {t : Track} (h : Follows a t) :
    (t.tkhd.volume, t.tkhd.width, t.tkhd.height) = Spec.presentation a.codec := by
  have h7 := h.2.2.2.2.2.2
  unfold CodecFollows at h7
  cases hc : a.codec <;> rw [hc] at h7
  · obtain ⟨cfg', h7, -⟩ := h7
    simp only [Track.tkhd, h7, Spec.presentation]
    rfl
  all_goals simp only [Track.tkhd, h7, Spec.presentation]
  all_goals rfl

theorem tkhd_fields (t : Track) : t.tkhd.toFullBox = ⟨0, 0, 0, 3⟩ ∧ t.tkhd.track_id = t.track_id ∧
    t.tkhd.creation_time = t.time_from_epoch ∧ t.tkhd.modification_time = t.time_from_epoch ∧
    t.tkhd.duration = t.durationInMvhdTimescale ∧ t.tkhd.layer = 0 ∧ t.tkhd.alternate_group = 0 ∧ t.tkhd.matrix = Spec.unity :=
  ⟨rfl, rfl, rfl, rfl, rfl, rfl, rfl, rfl⟩

theorem trak_parameters {a : Spec.TrackAsked} {t : Track} (h : Follows a t) (p : List BoxType) :
    Spec.Parameters Spec.inObjects a t.mdat_sample_sizes.length (t.trak p) := by
  obtain ⟨t1, t2, t3, t4, t5, q, t6⟩ := stbl_table_stts t p
  have hv := h.handler
  have hvi := handler_video t.codec
  have hf := h
  obtain ⟨h1, h2, h3, h4, h5, h6, -⟩ := h
  constructor
  · refine ⟨t.tkhd, ?_, rfl, h6, h4, h4, h3, presentation_eq hf, rfl, rfl, rfl, rfl, rfl, rfl, rfl⟩
    unfold Track.trak
    rw [dataAt_one, at_eq _ _ _ _ _ (by rfl)]; rfl
  · refine ⟨t.elst, ?_, rfl, ?_⟩
    · unfold Track.trak
      show (Spec.at_ [fourcc "edts", fourcc "elst"] _).map _ = _
      rw [at_ne _ _ _ _ _ (by fcne), at_eq _ _ _ _ _ (by rfl), at_eq _ _ _ _ _ (by rfl)]; rfl
    · show [_] = _
      rw [h3, h5]; rfl
  · refine ⟨t.mdhd, ?_, rfl, h1, h2, h4, h4, rfl, rfl, rfl⟩
    unfold Track.trak
    show (Spec.at_ [fourcc "mdia", fourcc "mdhd"] _).map _ = _
    rw [at_ne _ _ _ _ _ (by fcne), at_ne _ _ _ _ _ (by fcne), at_eq _ _ _ _ _ (by rfl), at_eq _ _ _ _ _ (by rfl)]; rfl
  · have hb : t.hdlr = Spec.handler (if Spec.CodecIsVideo a.codec then "vide" else "soun") Spec.toolName := by
      rw [← hv]
      unfold Track.hdlr Spec.handler
      cases hh : t.codec.handler with
      | vide => rw [if_pos (hvi.mp hh)]; rfl
      | soun =>
        rw [if_neg]
        · rfl
        · intro hc
          rw [hvi.mpr hc] at hh
          cases hh
    rw [← hb]
    unfold Track.trak
    show (Spec.at_ [fourcc "mdia", fourcc "hdlr"] _).map _ = _
    rw [at_ne _ _ _ _ _ (by fcne), at_ne _ _ _ _ _ (by fcne), at_eq _ _ _ _ _ (by rfl), at_ne _ _ _ _ _ (by fcne),
      at_eq _ _ _ _ _ (by rfl)]; rfl
  · rw [← hv]
    have e : ∀ x, Spec.at_ (["mdia", "minf", x].map fourcc) (t.trak p) = _ := fun x => at_minf [fourcc x] t p
    have m1 : ∀ q, (Track.dinf q).box.type ≠ fourcc "vmhd" := fun q => by fcne
    have m2 : ∀ q, (Track.dinf q).box.type ≠ fourcc "smhd" := fun q => by fcne
    cases hh : t.codec.handler with
    | vide =>
      have hb := fun q => header_type t q
      rw [if_pos hh] at hb
      rw [if_pos (hvi.mp hh)]
      unfold Spec.dataAt Spec.noneAt
      rw [e, e, at_eq _ _ _ _ _ (hb _), at_ne _ _ _ _ _ (by rw [hb]; fcne), at_ne _ _ _ _ _ (m2 _), at_ne _ _ _ _ _ (by fcne)]
      refine ⟨?_, rfl⟩
      unfold Track.mediaHeader
      rw [hh]; rfl
    | soun =>
      have hb := fun q => header_type t q
      rw [if_neg (by rw [hh]; simp)] at hb
      rw [if_neg (by intro hc; rw [hvi.mpr hc] at hh; cases hh)]
      unfold Spec.dataAt Spec.noneAt
      rw [e, e, at_eq _ _ _ _ _ (hb _), at_ne _ _ _ _ _ (by rw [hb]; fcne), at_ne _ _ _ _ _ (m1 _), at_ne _ _ _ _ _ (by fcne)]
      refine ⟨?_, rfl⟩
      unfold Track.mediaHeader
      rw [hh]; rfl
  · obtain ⟨q1, e1⟩ := at_dinf [fourcc "dref"] t p
    obtain ⟨q2, e2⟩ := at_dinf [fourcc "dref", fourcc "url "] t p
    refine ⟨⟨⟨0, 0, 0, 1⟩, []⟩, ?_, ?_, rfl⟩
    · show (Spec.at_ [fourcc "mdia", fourcc "minf", fourcc "dinf", fourcc "dref"] _).map _ = _
      rw [e1]
      unfold Track.dinf
      rw [at_eq _ _ _ _ _ (by rfl)]; rfl
    · show (Spec.at_ [fourcc "mdia", fourcc "minf", fourcc "dinf", fourcc "dref", fourcc "url "] _).map _ = _
      rw [e2]
      unfold Track.dinf
      rw [at_eq _ _ _ _ _ (by rfl), at_eq _ _ _ _ _ (by rfl)]; rfl
  · obtain ⟨entry, g1, g2⟩ := entry_spec hf q
    exact ⟨_, entry, t6, rfl, g1, g2⟩
  · intro r hr
    rw [← hf.roll] at hr
    obtain ⟨g1, g2⟩ := t4 r hr
    exact ⟨_, _, g1, rfl, rfl, g2, rfl, rfl, rfl, rfl, rfl⟩
  · intro hr
    rw [← hf.roll] at hr
    exact t5 hr

theorem trak_tables {a : Spec.TrackAsked} {ss : List Sample} {t : Track} (h : Follows a t) (p : List BoxType)
    (hs : t.mdat_sample_sizes = ss.map fun s => BitVec.ofNat 32 s.data.length)
    (hd : t.sample_durations = Spec.durations t.durationInTimescale (ss.map (·.timestamp)))
    (hk : t.key_sample_numbers = if t.codec.handler = .vide then (Spec.keyNumbers 1 ss).map (BitVec.ofNat 32) else [])
    (hn : ss.length < 2 ^ 32) : Spec.Tables a ss (t.trak p) := by
  obtain ⟨t1, t2, t3, -⟩ := stbl_table_stts t p
  rw [h.handler] at t3
  constructor
  · refine ⟨_, t1, rfl, ?_⟩
    dsimp only
    rw [(C32_entries _ (by rw [hd, durations_length, List.length_map]; exact hn)).1, hd, h.2.1]
  · exact ⟨_, t2, rfl, rfl, hs⟩
  · intro hv
    rw [if_pos hv] at t3
    refine ⟨_, t3, rfl, ?_⟩
    dsimp only
    rw [hk, if_pos ((handler_video _).mpr (h.handler.trans hv)), List.map_map]
    have hb := Spec.keyNumbers_bounds ss 1
    have : ∀ k ∈ Spec.keyNumbers 1 ss, ((fun x : BitVec 32 => x.toNat) ∘ BitVec.ofNat 32) k = id k := by
      intro k hk
      have := hb k hk
      rw [Function.comp_apply, BitVec.toNat_ofNat, Nat.mod_eq_of_lt (by omega)]; rfl
    rw [List.map_congr_left this, List.map_id]
  · exact ⟨_, stbl_table_stsc t p, rfl⟩
  · rcases stbl_table_offsets t p with ⟨x, hx⟩ | ⟨x, hx⟩
    · exact .inl ⟨_, hx, rfl⟩
    · exact .inr ⟨_, hx, rfl⟩
  · intro hv
    rw [if_neg (by rw [hv]; simp)] at t3
    exact t3

/-! ### Which boxes there are -/

theorem outlineList_cons (d : Nat) (t : Tree) (ts : List Tree) :
    Spec.outlineList d (t :: ts) = Spec.outline d t ++ Spec.outlineList d ts := by rw [Spec.outlineList]

theorem outline_mk (d : Nat) (ty : BoxType) (x : BoxData) (cs : List Mk) (q : List BoxType) :
    Spec.outline d (mkInfo ty x cs q) = (d, ty) :: Spec.outlineList (d + 1) (cs.map (· (q ++ [ty]))) := by
  unfold mkInfo
  rw [Spec.outline]

theorem outline_offsets (d : Nat) (t : Track) (q : List BoxType) :
    Spec.outline d (t.offsets q) = [(d, fourcc (if t.wide = true then "co64" else "stco"))] := by
  rw [t.offsets_wide q]
  split <;> rw [outline_mk] <;> rfl

theorem trak_outline (t : Track) (q : List BoxType) :
    Spec.outline 1 (t.trak q) = Spec.lines (Spec.trakOutline t.codec t.wide) := by
  have ho := fun q => outline_offsets 5 t q
  unfold Track.trak Track.stblChildren Track.mediaHeader Codec.stsd
  cases hc : t.codec <;>
  simp only [outline_mk, outlineList_cons, List.map_cons, List.map_nil, Codec.handler, Track.rollGroups, Track.stts, Track.stss,
    Track.stsc, Track.stsz, Track.dinf, ho, List.cons_append, List.nil_append, Spec.outlineList, Spec.trakOutline, Spec.CodecIsVideo,
    Spec.rollDistance, Spec.entryOutline, Spec.lines, List.append_nil, if_true, Option.isSome] <;>
  (try split) <;> rfl

end Mp4
