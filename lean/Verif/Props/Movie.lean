import Verif.Lemmas.Trak
import Verif.Props.Faststart

/-! # C57, C58, C68: what `moov` says about every program

The statements use `Spec.Tables`, `Spec.Parameters`, `Spec.Movie` and `Spec.MovieOutline` (Spec/Movie.lean). -/

namespace Mp4

theorem Follows.shift {a : Spec.TrackAsked} {t : Track} (h : Follows a t) (S : Nat) : Follows a (t.shift S) := h

/-- `udta` comes behind the `trak` boxes. -/
theorem at_udta (tys : List BoxType) (m : Mvhd) (tracks : List Track) :
    Spec.at_ (fourcc "udta" :: tys) (moovTree m tracks) = Spec.at_ tys (udta [fourcc "moov"]) := by
  rw [at_cons]
  have : Spec.child (fourcc "udta") (moovTree m tracks) = some (udta [fourcc "moov"]) := by
    unfold Spec.child moovTree Tree.leafs
    dsimp only
    have h0 : fourcc "mvhd" ≠ fourcc "udta" := by decide +kernel
    have h1 : fourcc "trak" ≠ fourcc "udta" := by decide +kernel
    rw [List.find?_cons_of_neg (by rw [decide_eq_true_eq]; exact h0), List.find?_append, List.find?_eq_none.mpr]
    · rw [Option.none_or, List.find?_cons_of_pos (by rw [decide_eq_true_eq]; rfl)]
    · intro c hc
      obtain ⟨t, -, rfl⟩ := List.mem_map.mp hc
      simpa using (show (t.trak [fourcc "moov"]).box.type ≠ _ from h1)
  rw [this]; rfl

theorem movie_spec (ts : BitVec 32) (dur now : BitVec 64) (id : BitVec 32) (tracks : List Track) :
    Spec.Movie Spec.inObjects ts dur now (moovTree (newMvhd now ts dur id) tracks) := by
  constructor
  · refine ⟨newMvhd now ts dur id, ?_, rfl, rfl, rfl, rfl, rfl, rfl, rfl, rfl, rfl, rfl, rfl, rfl⟩
    rw [dataAt_one, at_cons]
    have : Spec.child (fourcc "mvhd") (moovTree (newMvhd now ts dur id) tracks) =
        some (.node { type := fourcc "mvhd", data := .mvhd (newMvhd now ts dur id) } [fourcc "moov", fourcc "mvhd"] []) := by
      unfold Spec.child moovTree Tree.leafs
      dsimp only
      rw [List.find?_cons_of_pos (by simp [Tree.box])]
    rw [this]; rfl
  · refine ⟨?_, ?_⟩
    · show (Spec.at_ [fourcc "udta", fourcc "meta"] _).map _ = _
      rw [at_udta]
      unfold udta
      rw [at_eq _ _ _ _ _ (by rfl)]; rfl
    · show (Spec.at_ [fourcc "udta", fourcc "meta", fourcc "hdlr"] _).map _ = _
      rw [at_udta]
      unfold udta
      rw [at_eq _ _ _ _ _ (by rfl), at_eq _ _ _ _ _ (by rfl)]; rfl
  · refine ⟨mkInfo (fourcc "data") (.data ⟨1, 0, shiguredoMp4⟩) []
      [fourcc "moov", fourcc "udta", fourcc "meta", fourcc "ilst", ⟨0xa9, 0x74, 0x6f, 0x6f⟩], ?_, rfl⟩
    rw [at_udta]
    unfold udta
    rw [at_eq _ _ _ _ _ (by rfl), at_ne _ _ _ _ _ (by fcne), at_eq _ _ _ _ _ (by rfl), at_eq _ _ _ _ _ (by rfl),
      at_eq _ _ _ _ _ (by rfl)]
    rfl

/-- Every finished track, whatever its offsets. -/
theorem each_trak {σ : Type} [TrackWriter σ] {w1 : σ} {s : Session σ} {es : List Event} {calls : List Call} (m : Mvhd)
    (R : Spec.TrackAsked → List Sample → Tree → Prop) (g : Track → Track) (hs : s = (Session.mk [] w1).calls calls)
    (hr : Session.Reached idStep w1 s es)
    (hR : ∀ i a t, Follows a t → Timed (Spec.samplesOf i es) t → R a (Spec.samplesOf i es) ((g t).trak [fourcc "moov"])) :
    Spec.EachTrak R calls es (moovTree m (s.tracks.map g)) := by
  obtain ⟨h1, h2⟩ : AllFollow (Spec.asked calls) s.tracks := by
    rw [hs]
    exact Session.calls_asked calls ⟨[], w1⟩ [] ⟨rfl, by simp⟩
  obtain ⟨-, h3⟩ := Reached.timed hr
  unfold Spec.EachTrak
  rw [traks_moovTree, List.map_map]
  refine ⟨by rw [List.length_map]; exact h1.symm, ?_⟩
  intro i a trak ha ht
  rw [List.getElem?_map] at ht
  cases hti : s.tracks[i]? with
  | none => rw [hti] at ht; cases ht
  | some t =>
    rw [hti] at ht
    cases ht
    exact hR i a t (h2 i a t ha hti) (h3 i t hti)

theorem tables_of {a : Spec.TrackAsked} {ss : List Sample} {t : Track} (h : Follows a t) (ht : Timed ss t)
    (hn : ss.length < 2 ^ 32) (S : Nat) (p : List BoxType) :
    Spec.Tables a ss (t.finalize.trak p) ∧ Spec.Tables a ss ((t.finalize.shift S).trak p) := by
  obtain ⟨k1, k2, k3, k4⟩ := ht.finalize
  have hd : t.finalize.durationInTimescale = t.durationInTimescale := by unfold Track.finalize; split <;> rfl
  rw [← hd] at k2
  rw [← k4] at k3
  exact ⟨trak_tables h.finalize p k1 k2 k3 hn, trak_tables (h.finalize.shift S) p k1 k2 k3 hn⟩

theorem parameters_of {a : Spec.TrackAsked} {ss : List Sample} {t : Track} (h : Follows a t) (ht : Timed ss t)
    (S : Nat) (p : List BoxType) :
    Spec.Parameters Spec.inObjects a ss.length (t.finalize.trak p) ∧
    Spec.Parameters Spec.inObjects a ss.length ((t.finalize.shift S).trak p) := by
  obtain ⟨k1, -⟩ := ht.finalize
  have hl : t.finalize.mdat_sample_sizes.length = ss.length := by rw [k1, List.length_map]
  have r1 := trak_parameters h.finalize p
  have r2 := trak_parameters (h.finalize.shift S) p
  have hl2 : (t.finalize.shift S).mdat_sample_sizes.length = ss.length := hl
  rw [hl] at r1
  rw [hl2] at r2
  exact ⟨r1, r2⟩

theorem Follows.outline {a : Spec.TrackAsked} {t : Track} (h : Follows a t) (w : Bool) :
    Spec.trakOutline t.codec w = Spec.trakOutline a.codec w := by
  have h7 := h.2.2.2.2.2.2
  unfold CodecFollows at h7
  cases hc : a.codec <;> rw [hc] at h7
  · obtain ⟨cfg', h7, -⟩ := h7
    rw [h7]; rfl
  all_goals rw [h7]

theorem outlineList_append (d : Nat) (a b : List Tree) :
    Spec.outlineList d (a ++ b) = Spec.outlineList d a ++ Spec.outlineList d b := by
  induction a with
  | nil => rfl
  | cons t a ih => rw [List.cons_append, outlineList_cons, outlineList_cons, ih, List.append_assoc]

theorem outline_traks : ∀ (ts : List Track) (as : List Spec.TrackAsked), as.length = ts.length →
    (∀ (i : Nat) a t, as[i]? = some a → ts[i]? = some t → Follows a t) →
    Spec.outlineList 1 (ts.map (·.trak [fourcc "moov"])) =
      (as.zip (ts.map (·.wide))).flatMap (fun p => Spec.lines (Spec.trakOutline p.1.codec p.2))
  | [], as, h, _ => by
    obtain rfl := List.length_eq_zero_iff.mp h
    rfl
  | t :: ts, [], h, _ => by cases h
  | t :: ts, a :: as, h, hf => by
    rw [List.map_cons, outlineList_cons, List.map_cons, List.zip_cons_cons, List.flatMap_cons, trak_outline,
      (hf 0 a t rfl rfl).outline, outline_traks ts as (by simpa using h) (fun i a t ha ht => hf (i + 1) a t (by simpa using ha) (by simpa using ht))]

/-- The boxes of `moov`. -/
theorem movie_outline {σ : Type} [TrackWriter σ] {w1 : σ} {s : Session σ} {calls : List Call} (m : Mvhd)
    (g : Track → Track) (hg : ∀ a t, Follows a t → Follows a (g t)) (hs : s = (Session.mk [] w1).calls calls) :
    Spec.MovieOutline calls (moovTree m (s.tracks.map g)) := by
  obtain ⟨h1, h2⟩ : AllFollow (Spec.asked calls) s.tracks := by
    rw [hs]
    exact Session.calls_asked calls ⟨[], w1⟩ [] ⟨rfl, by simp⟩
  refine ⟨(s.tracks.map g).map (·.wide), by rw [List.length_map, List.length_map]; exact h1.symm, ?_⟩
  unfold moovTree
  rw [Spec.outline, outlineList_cons, outlineList_append, outline_traks _ (Spec.asked calls) (by rw [List.length_map]; exact h1), outlineList_cons]
  · simp only [udta, outline_mk, outlineList_cons, List.map_cons, List.map_nil, Spec.outlineList, Spec.outline, Spec.lines,
      List.append_assoc, List.cons_append, List.nil_append]
  · intro i a t ha ht
    rw [List.getElem?_map] at ht
    cases hti : s.tracks[i]? with
    | none => rw [hti] at ht; cases ht
    | some u =>
      rw [hti] at ht
      cases ht
      exact hg _ _ (h2 i a u ha hti)

/-- **C57.** For every program that uses `SimpleWriter`: in the finished file the tables of every track say, for each of its samples, its
size and its duration (the time to the next sample, from the last one to the end of the track), and for video exactly which
samples are key samples. (Below 2^32 samples per track, in a file below 2^64 bytes.) -/
theorem C57_simple (os : OStream) (hos : os.data = []) (f : Ftyp) (ts : BitVec 32) (dur now : BitVec 64) (calls : List Call)
    (hf : f.compatible_brands.length < 2 ^ 32) :
    ∃ s es, SimpleWriter.session os f ts dur now calls = .ok s ∧ Spec.Expands [] calls es ∧
      (Tree.totalList (Spec.simpleFile f (Spec.mdat es) (SimpleWriter.moovOf s)) < 2 ^ 64 →
       (∀ i, (Spec.samplesOf i es).length < 2 ^ 32) →
       ∃ w moov, SimpleWriter.finish s = .ok w ∧
        w.os.data = Tree.encodeList (Spec.simpleFile f (Spec.mdat es) moov) ∧ Spec.EachTrak Spec.Tables calls es moov) := by
  obtain ⟨w1, s, es, hw1, hinv, hs, hses, he1, he2, he3, hP, hmoov⟩ := simple_any os hos f ts dur now calls hf
  refine ⟨s, es, hses, he1, ?_⟩
  intro hfit hn
  rw [hmoov, simpleFile_total] at hfit
  obtain ⟨w, hw, hfile⟩ := SimpleWriter.finish_eq hP hfit
  refine ⟨w, _, hw, by rw [hfile, headBoxes_simpleFile], ?_⟩
  exact each_trak _ _ _ hs he2 (fun i a t h1 h2 => (tables_of h1 h2 (hn i) 0 _).1)

/-- **C57** The same for `FaststartWriter`. -/
theorem C57_faststart (os : OStream) (hos : os.data = []) (f : Ftyp) (ts : BitVec 32) (dur now : BitVec 64) (calls : List Call)
    (hf : f.compatible_brands.length < 2 ^ 32) :
    ∃ s es, FaststartWriter.session os f ts dur now calls = .ok s ∧ Spec.Expands [] calls es ∧
      (FaststartWriter.sizeBound s f (Spec.mdat es) < 2 ^ 63 →
       (∀ i, (Spec.samplesOf i es).length < 2 ^ 32) →
       ∃ w moov, FaststartWriter.finish s = .ok w ∧
        w.os.data = Tree.encodeList (Spec.faststartFile f (Spec.mdat es) moov) ∧ Spec.EachTrak Spec.Tables calls es moov) := by
  obtain ⟨w1, s, es, hw1, hinv, hs, hses, he1, he2, he3, hP⟩ := faststart_any os hos f ts dur now calls hf
  refine ⟨s, es, hses, he1, ?_⟩
  intro hfit hn
  obtain ⟨-, c1, c2, c3, c4⟩ := faststart_fit hinv he2 hfit
  obtain ⟨w, S, hw, hfile, hS, hS2⟩ := FaststartWriter.finish_eq hP c1 c2 c3 c4
  refine ⟨w, _, hw, hfile, ?_⟩
  rw [FaststartWriter.finals, List.map_map]
  exact each_trak _ _ _ hs he2 (fun i a t h1 h2 => (tables_of h1 h2 (hn i) S _).2)

/-- **C58.** For every program that uses `SimpleWriter`: `moov` in the finished file says what the writer and the tracks were constructed
with (times, durations, sizes, media time, sample entry and codec configuration including the parameter sets found in
the buffers); `Spec.Movie` and `Spec.Parameters` list the fields. -/
theorem C58_simple (os : OStream) (hos : os.data = []) (f : Ftyp) (ts : BitVec 32) (dur now : BitVec 64) (calls : List Call)
    (hf : f.compatible_brands.length < 2 ^ 32) :
    ∃ s es, SimpleWriter.session os f ts dur now calls = .ok s ∧ Spec.Expands [] calls es ∧
      (Tree.totalList (Spec.simpleFile f (Spec.mdat es) (SimpleWriter.moovOf s)) < 2 ^ 64 →
       ∃ w moov, SimpleWriter.finish s = .ok w ∧
        w.os.data = Tree.encodeList (Spec.simpleFile f (Spec.mdat es) moov) ∧ Spec.Movie Spec.inObjects ts dur now moov ∧
        Spec.EachTrak (fun a ss trak => Spec.Parameters Spec.inObjects a ss.length trak) calls es moov) := by
  obtain ⟨w1, s, es, hw1, hinv, hs, hses, he1, he2, he3, hP, hmoov⟩ := simple_any os hos f ts dur now calls hf
  refine ⟨s, es, hses, he1, ?_⟩
  intro hfit
  rw [hmoov, simpleFile_total] at hfit
  obtain ⟨w, hw, hfile⟩ := SimpleWriter.finish_eq hP hfit
  refine ⟨w, moovTree (newMvhd now ts dur s.writer.next_track_id) (s.tracks.map (·.finalize)), hw,
    by rw [hfile, headBoxes_simpleFile]; rfl, movie_spec ts dur now s.writer.next_track_id (s.tracks.map (·.finalize)), ?_⟩
  exact each_trak _ _ _ hs he2 (fun i a t h1 h2 => (parameters_of h1 h2 0 _).1)

/-- **C58** The same for `FaststartWriter`. -/
theorem C58_faststart (os : OStream) (hos : os.data = []) (f : Ftyp) (ts : BitVec 32) (dur now : BitVec 64) (calls : List Call)
    (hf : f.compatible_brands.length < 2 ^ 32) :
    ∃ s es, FaststartWriter.session os f ts dur now calls = .ok s ∧ Spec.Expands [] calls es ∧
      (FaststartWriter.sizeBound s f (Spec.mdat es) < 2 ^ 63 →
       ∃ w moov, FaststartWriter.finish s = .ok w ∧
        w.os.data = Tree.encodeList (Spec.faststartFile f (Spec.mdat es) moov) ∧ Spec.Movie Spec.inObjects ts dur now moov ∧
        Spec.EachTrak (fun a ss trak => Spec.Parameters Spec.inObjects a ss.length trak) calls es moov) := by
  obtain ⟨w1, s, es, hw1, hinv, hs, hses, he1, he2, he3, hP⟩ := faststart_any os hos f ts dur now calls hf
  refine ⟨s, es, hses, he1, ?_⟩
  intro hfit
  obtain ⟨-, c1, c2, c3, c4⟩ := faststart_fit hinv he2 hfit
  obtain ⟨w, S, hw, hfile, hS, hS2⟩ := FaststartWriter.finish_eq hP c1 c2 c3 c4
  refine ⟨w, _, hw, hfile, ?_, ?_⟩
  · unfold FaststartWriter.mvhd
    rw [hP.2.2.2.2.2.2.1, hP.2.2.2.2.2.2.2.1, hP.2.2.2.2.2.2.2.2]
    exact movie_spec ts dur now _ _
  · rw [FaststartWriter.finals, List.map_map]
    exact each_trak _ _ _ hs he2 (fun i a t h1 h2 => (parameters_of h1 h2 S _).2)

/-- **C68.** For every program that uses `SimpleWriter`: `moov` in the finished file consists of exactly the boxes of `Spec.MovieOutline`: the
movie header, per track every mandatory box once and the optional ones of its codec, and the user data; nothing is missing,
nothing is doubled. -/
theorem C68_simple (os : OStream) (hos : os.data = []) (f : Ftyp) (ts : BitVec 32) (dur now : BitVec 64) (calls : List Call)
    (hf : f.compatible_brands.length < 2 ^ 32) :
    ∃ s es, SimpleWriter.session os f ts dur now calls = .ok s ∧ Spec.Expands [] calls es ∧
      (Tree.totalList (Spec.simpleFile f (Spec.mdat es) (SimpleWriter.moovOf s)) < 2 ^ 64 →
       ∃ w moov, SimpleWriter.finish s = .ok w ∧
        w.os.data = Tree.encodeList (Spec.simpleFile f (Spec.mdat es) moov) ∧ Spec.MovieOutline calls moov) := by
  obtain ⟨w1, s, es, hw1, hinv, hs, hses, he1, he2, he3, hP, hmoov⟩ := simple_any os hos f ts dur now calls hf
  refine ⟨s, es, hses, he1, ?_⟩
  intro hfit
  rw [hmoov, simpleFile_total] at hfit
  obtain ⟨w, hw, hfile⟩ := SimpleWriter.finish_eq hP hfit
  refine ⟨w, _, hw, by rw [hfile, headBoxes_simpleFile], ?_⟩
  exact movie_outline _ _ (fun a t h => h.finalize) hs

/-- **C68** The same for `FaststartWriter`, which builds `moov` several times. -/
theorem C68_faststart (os : OStream) (hos : os.data = []) (f : Ftyp) (ts : BitVec 32) (dur now : BitVec 64) (calls : List Call)
    (hf : f.compatible_brands.length < 2 ^ 32) :
    ∃ s es, FaststartWriter.session os f ts dur now calls = .ok s ∧ Spec.Expands [] calls es ∧
      (FaststartWriter.sizeBound s f (Spec.mdat es) < 2 ^ 63 →
       ∃ w moov, FaststartWriter.finish s = .ok w ∧
        w.os.data = Tree.encodeList (Spec.faststartFile f (Spec.mdat es) moov) ∧ Spec.MovieOutline calls moov) := by
  obtain ⟨w1, s, es, hw1, hinv, hs, hses, he1, he2, he3, hP⟩ := faststart_any os hos f ts dur now calls hf
  refine ⟨s, es, hses, he1, ?_⟩
  intro hfit
  obtain ⟨-, c1, c2, c3, c4⟩ := faststart_fit hinv he2 hfit
  obtain ⟨w, S, hw, hfile, hS, hS2⟩ := FaststartWriter.finish_eq hP c1 c2 c3 c4
  refine ⟨w, _, hw, hfile, ?_⟩
  rw [FaststartWriter.finals, List.map_map]
  exact movie_outline _ _ (fun a t h => h.finalize.shift S) hs

end Mp4
