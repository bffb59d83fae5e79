import Verif.Lemmas.Fit

/-! # C60: reading a finished file gives back the movie -/

namespace Mp4
open Tree

theorem keyNumbers_length (ss : List Sample) : ∀ n, (Spec.keyNumbers n ss).length ≤ ss.length := by
  induction ss with
  | nil => intro n; exact Nat.le_refl _
  | cons s ss ih =>
    intro n
    rw [Spec.keyNumbers, List.length_append, List.length_cons]
    have := ih (n + 1)
    split <;> simp <;> omega

theorem Timed.small {a : Spec.TrackAsked} {ss : List Sample} {t : Track} (h : Timed ss t) (hf : Follows a t) (hc : Spec.CodecFits a)
    (hn : ss.length < 2 ^ 32) : t.finalize.Small := by
  obtain ⟨k1, k2, k3, k4⟩ := h.finalize
  refine ⟨hf.finalize.small hc, ?_, ?_, ?_, ?_⟩
  · have := h.chunks; omega
  · rw [k1, List.length_map]; exact hn
  · rw [k2, durations_length, List.length_map]; exact hn
  · rw [k3]
    split
    · rw [List.length_map]
      have := keyNumbers_length ss 1
      omega
    · exact (by decide : 0 < 2 ^ 32)

theorem Track.Small.shift {t : Track} (h : t.Small) (S : Nat) : (t.shift S).Small :=
  ⟨h.codec, by show List.length (List.map _ _) < _; rw [List.length_map]; exact h.chunks, h.sizes, h.durations, h.keys⟩

theorem tracks_small {σ : Type} [TrackWriter σ] {w1 : σ} {s : Session σ} {es : List Event} {calls : List Call}
    (hs : s = (Session.mk [] w1).calls calls) (hr : Session.Reached idStep w1 s es) (hn : ∀ i, (Spec.samplesOf i es).length < 2 ^ 32)
    (hc : ∀ a ∈ Spec.asked calls, Spec.CodecFits a) : ∀ t ∈ s.tracks, t.finalize.Small := by
  obtain ⟨h1, h2⟩ : AllFollow (Spec.asked calls) s.tracks := by
    rw [hs]
    exact Session.calls_asked calls ⟨[], w1⟩ [] ⟨rfl, by simp⟩
  obtain ⟨-, h3⟩ := Reached.timed hr
  intro t ht
  obtain ⟨i, hi, rfl⟩ := List.mem_iff_getElem.mp ht
  have hi' : i < (Spec.asked calls).length := by rw [h1]; exact hi
  exact (h3 i _ (List.getElem?_eq_getElem hi)).small
    (h2 i _ _ (List.getElem?_eq_getElem hi') (List.getElem?_eq_getElem hi)) (hc _ (List.getElem_mem hi')) (hn i)

theorem leaf_fit (type : String) (d : BoxData) (h1 : (stdBoxMap.find (fourcc type)).map (·.factory) = some d.kind)
    (h2 : fourcc type ≠ fourcc "wave") (h3 : ∀ env, d.Survives env (fourcc type) (false = true) True) : (Spec.leaf type d).Fit := by
  obtain ⟨x, hx1, hx2⟩ := Option.map_eq_some_iff.mp h1
  refine ⟨⟨⟨x, hx1, hx2⟩, h2, ?_⟩, trivial⟩
  intro env
  have : (True) = (([] : List Tree) = []) := by simp
  rw [← this]
  exact h3 env

theorem ftyp_fit (f : Ftyp) : (Spec.leaf "ftyp" (.ftyp f)).Fit := by
  refine leaf_fit _ _ ?_ (by decide +kernel) (fun _ => trivial)
  dsimp only [BoxData.kind]; decide +kernel

theorem mdat_fit (L : List Byte) : (Spec.leaf "mdat" (.opaq ⟨L⟩)).Fit := by
  refine leaf_fit _ _ ?_ (by decide +kernel) (fun _ => trivial)
  dsimp only [BoxData.kind]; decide +kernel

theorem free_fit (L : List Byte) : (Spec.leaf "free" (.opaq ⟨L⟩)).Fit := by
  refine leaf_fit _ _ ?_ (by decide +kernel) (fun _ => trivial)
  dsimp only [BoxData.kind]; decide +kernel

theorem KeptList.types : ∀ {ts ts' : List Tree}, KeptList ts ts' → ts'.map (·.box.type) = ts.map (·.box.type)
  | [], [], _ => rfl
  | t :: ts, t' :: ts', h => by rw [List.map_cons, List.map_cons, h.1.type, KeptList.types h.2]

theorem KeptList.topLevel {ts ts' : List Tree} (k : KeptList ts ts') {type : String} {t : Tree} (h : Spec.topLevel type ts = some t) :
    ∃ t', Spec.topLevel type ts' = some t' ∧ Kept t t' := by
  unfold Spec.topLevel at h ⊢
  rcases KeptList.find (ty := fourcc type) k with ⟨c, c', h1, h2, h3⟩ | ⟨h1, h2⟩
  · rw [h] at h1; cases h1; exact ⟨c', h2, h3⟩
  · rw [h] at h1; cases h1

/-- A file of such boxes, read. -/
theorem reads_movie (sr : SimpleReader) (hm : sr.map = stdBoxMap) (types : List String) (f : Ftyp) (L : List Byte) (moov : Tree)
    (ts : List Tree) (hd : sr.data = Tree.encodeList ts) (hl : Tree.totalList ts < 2 ^ 63) (hfit : FitList ts)
    (htypes : ts.map (·.box.type) = types.map fourcc) (h1 : Spec.topLevel "ftyp" ts = some (Spec.leaf "ftyp" (.ftyp f)))
    (h2 : Spec.topLevel "mdat" ts = some (Spec.leaf "mdat" (.opaq ⟨L⟩))) (h3 : Spec.topLevel "moov" ts = some moov) :
    ∃ moov', Spec.ReadsMovie sr types f L moov' ∧ Kept moov moov' := by
  have hr := C61_any_forest sr ts hd hl (FitList.surviving sr hm ts 0 hfit)
  have hk := FitList.kept sr hm ts [] 0 hfit
  obtain ⟨a, a1, a2⟩ := KeptList.topLevel hk h1
  obtain ⟨b, b1, b2⟩ := KeptList.topLevel hk h2
  obtain ⟨c, c1, c2⟩ := KeptList.topLevel hk h3
  obtain ⟨_, a3⟩ := a2.data
  obtain ⟨_, b3⟩ := b2.data
  refine ⟨c, ⟨_, _, hr, (KeptList.types hk).trans htypes, ?_, ?_, c1⟩, c2⟩
  · rw [a1, Option.map_some, a3]; rfl
  · rw [b1, Option.map_some, b3]; rfl

/-- **C60.** Whatever a program does with `SimpleWriter` and its tracks, the finished file is read by `SimpleReader` without an exception and
what it returns is the movie: `ftyp` as given, the samples, and a `moov` that says of every track what was asked for and which samples
it has; and for a program that keeps to the rule for callers the samples found through the tables that were read are the
samples added. (Times are kept in 32 bits; sizes and counts must fit, and the values of the codecs their fields.) -/
theorem C60_simple (os : OStream) (hos : os.data = []) (f : Ftyp) (ts : BitVec 32) (dur now : BitVec 64) (calls : List Call)
    (hf : f.compatible_brands.length < 2 ^ 32) :
    ∃ s es, SimpleWriter.session os f ts dur now calls = .ok s ∧ Spec.Expands [] calls es ∧
      (Tree.totalList (Spec.simpleFile f (Spec.mdat es) (SimpleWriter.moovOf s)) < 2 ^ 63 →
       (∀ i, (Spec.samplesOf i es).length < 2 ^ 32 - 1) → (∀ i, ∀ x ∈ Spec.samplesOf i es, x.data.length < 2 ^ 32) →
       (∀ a ∈ Spec.asked calls, Spec.CodecFits a) →
       ∃ w, SimpleWriter.finish s = .ok w ∧ ∀ (file : Bool) (env : Nat → Env), ∃ moov,
        Spec.ReadsMovie { file, env, data := w.os.data } (Spec.simpleTypes (Spec.mdat es)) f (Spec.mdat es) moov ∧
        Spec.Movie Spec.inFile ts dur now moov ∧ Spec.MovieOutline calls moov ∧ Spec.EachTrak Spec.Tables calls es moov ∧
        Spec.EachTrak (fun a ss trak => Spec.Parameters Spec.inFile a ss.length trak) calls es moov ∧
        (Spec.DisciplinedCalls calls → (Spec.traks moov).map (Spec.trakSamples w.os.data) =
          (List.range (Spec.afterAll [] calls).length).map fun i => some ((Spec.samplesOf i es).map (·.data)))) := by
  obtain ⟨w1, s, es, hw1, hinv, hs, hses, he1, he2, he3, hP, hmoov⟩ := simple_any os hos f ts dur now calls hf
  refine ⟨s, es, hses, he1, ?_⟩
  intro hfit hn hsz hc
  rw [hmoov, simpleFile_total] at hfit
  obtain ⟨w, hw, hfile⟩ := SimpleWriter.finish_eq hP (by omega)
  refine ⟨w, hw, ?_⟩
  intro file env
  let M := newMvhd now ts dur s.writer.next_track_id
  have hfile1 : w.os.data = Tree.encodeList (SimpleWriter.headBoxes f (Spec.mdat es) ++ [moovTree M (s.tracks.map (·.finalize))]) := hfile
  have hfile2 : w.os.data = Tree.encodeList (Spec.simpleFile f (Spec.mdat es) (moovTree M (s.tracks.map (·.finalize)))) := by
    rw [hfile1, headBoxes_simpleFile]
  have hsm : ∀ t ∈ s.tracks.map (·.finalize), t.Small := by
    intro t ht
    obtain ⟨u, hu, rfl⟩ := List.mem_map.mp ht
    exact tracks_small hs he2 (fun i => by have := hn i; omega) hc u hu
  have hmf : (moovTree M (s.tracks.map (·.finalize))).Fit := moov_fit M _ hsm
  have hmt : (moovTree M (s.tracks.map (·.finalize))).total =
      (moovTree (newMvhd now ts dur 1) (s.tracks.map (·.finalize))).total := rfl
  have hmty : (moovTree M (s.tracks.map (·.finalize))).box.type = fourcc "moov" := rfl
  have hparts : FitList (Spec.simpleFile f (Spec.mdat es) (moovTree M (s.tracks.map (·.finalize)))) ∧
      (Spec.simpleFile f (Spec.mdat es) (moovTree M (s.tracks.map (·.finalize)))).map (·.box.type) =
        (Spec.simpleTypes (Spec.mdat es)).map fourcc ∧
      Spec.topLevel "ftyp" (Spec.simpleFile f (Spec.mdat es) (moovTree M (s.tracks.map (·.finalize)))) =
        some (Spec.leaf "ftyp" (.ftyp f)) ∧
      Spec.topLevel "mdat" (Spec.simpleFile f (Spec.mdat es) (moovTree M (s.tracks.map (·.finalize)))) =
        some (Spec.leaf "mdat" (.opaq ⟨Spec.mdat es⟩)) ∧
      Spec.topLevel "moov" (Spec.simpleFile f (Spec.mdat es) (moovTree M (s.tracks.map (·.finalize)))) =
        some (moovTree M (s.tracks.map (·.finalize))) := by
    generalize moovTree M (s.tracks.map (·.finalize)) = moov at hmf hmty
    generalize Spec.mdat es = L
    unfold Spec.simpleFile Spec.simpleTypes
    by_cases hL : L.length + 8 < 2 ^ 32
    · rw [if_pos hL, if_pos hL]
      refine ⟨⟨ftyp_fit f, free_fit _, mdat_fit _, hmf, trivial⟩, ?_, ?_, ?_, ?_⟩
      · simp only [List.map_cons, List.map_nil, hmty]; rfl
      all_goals simp only [Spec.topLevel]
      · rw [List.find?_cons_of_pos (by rw [decide_eq_true_eq]; rfl)]
      · rw [List.find?_cons_of_neg (by rw [decide_eq_true_eq]; show fourcc "ftyp" ≠ fourcc "mdat"; decide +kernel),
          List.find?_cons_of_neg (by rw [decide_eq_true_eq]; show fourcc "free" ≠ fourcc "mdat"; decide +kernel),
          List.find?_cons_of_pos (by rw [decide_eq_true_eq]; rfl)]
      · rw [List.find?_cons_of_neg (by rw [decide_eq_true_eq]; show fourcc "ftyp" ≠ fourcc "moov"; decide +kernel),
          List.find?_cons_of_neg (by rw [decide_eq_true_eq]; show fourcc "free" ≠ fourcc "moov"; decide +kernel),
          List.find?_cons_of_neg (by rw [decide_eq_true_eq]; show fourcc "mdat" ≠ fourcc "moov"; decide +kernel),
          List.find?_cons_of_pos (by rw [decide_eq_true_eq]; exact hmty)]
    · rw [if_neg hL, if_neg hL]
      refine ⟨⟨ftyp_fit f, mdat_fit _, hmf, trivial⟩, ?_, ?_, ?_, ?_⟩
      · simp only [List.map_cons, List.map_nil, hmty]; rfl
      all_goals simp only [Spec.topLevel]
      · rw [List.find?_cons_of_pos (by rw [decide_eq_true_eq]; rfl)]
      · rw [List.find?_cons_of_neg (by rw [decide_eq_true_eq]; show fourcc "ftyp" ≠ fourcc "mdat"; decide +kernel),
          List.find?_cons_of_pos (by rw [decide_eq_true_eq]; rfl)]
      · rw [List.find?_cons_of_neg (by rw [decide_eq_true_eq]; show fourcc "ftyp" ≠ fourcc "moov"; decide +kernel),
          List.find?_cons_of_neg (by rw [decide_eq_true_eq]; show fourcc "mdat" ≠ fourcc "moov"; decide +kernel),
          List.find?_cons_of_pos (by rw [decide_eq_true_eq]; exact hmty)]
  obtain ⟨p1, p2, p3, p4, p5⟩ := hparts
  obtain ⟨moov', r1, r2⟩ := reads_movie { file, env, data := w.os.data } rfl (Spec.simpleTypes (Spec.mdat es)) f (Spec.mdat es)
    (moovTree M (s.tracks.map (·.finalize))) _ hfile2 (by rw [simpleFile_total, hmt]; omega) p1 p2 p3 p4 p5
  refine ⟨moov', r1, Movie.kept (movie_spec ts dur now s.writer.next_track_id (s.tracks.map (·.finalize))) r2,
    MovieOutline.kept (movie_outline M (·.finalize) (fun a t h => h.finalize) hs) r2, ?_, ?_, ?_⟩
  · exact EachTrak.kept (each_trak M Spec.Tables (·.finalize) hs he2
      (fun i a t h1 h2 => (tables_of h1 h2 (by have := hn i; omega) 0 _).1)) r2 (fun _ _ _ _ => Tables.kept)
  · exact EachTrak.kept (each_trak M (fun a ss trak => Spec.Parameters Spec.inObjects a ss.length trak) (·.finalize) hs he2
      (fun i a t h1 h2 => (parameters_of h1 h2 0 _).1)) r2 (fun _ _ _ _ => Parameters.kept)
  · intro hd
    have := simple_samples M hinv he1 he2 he3 hd hn hsz (by omega) hfile1
    have hx : ((List.range (Spec.afterAll [] calls).length).map fun i => some ((Spec.samplesOf i es).map (·.data))) =
        ((List.range (Spec.afterAll [] calls).length).map fun i => (Spec.samplesOf i es).map (·.data)).map some := by
      rw [List.map_map]; rfl
    rw [hx] at this ⊢
    exact trakSamples_kept r2.traks this

/-- **C60** The same for `FaststartWriter`. -/
theorem C60_faststart (os : OStream) (hos : os.data = []) (f : Ftyp) (ts : BitVec 32) (dur now : BitVec 64) (calls : List Call)
    (hf : f.compatible_brands.length < 2 ^ 32) :
    ∃ s es, FaststartWriter.session os f ts dur now calls = .ok s ∧ Spec.Expands [] calls es ∧
      (FaststartWriter.sizeBound s f (Spec.mdat es) < 2 ^ 63 →
       (∀ i, (Spec.samplesOf i es).length < 2 ^ 32 - 1) → (∀ i, ∀ x ∈ Spec.samplesOf i es, x.data.length < 2 ^ 32) →
       (∀ a ∈ Spec.asked calls, Spec.CodecFits a) →
       ∃ w, FaststartWriter.finish s = .ok w ∧ ∀ (file : Bool) (env : Nat → Env), ∃ moov,
        Spec.ReadsMovie { file, env, data := w.os.data } ["ftyp", "moov", "mdat"] f (Spec.mdat es) moov ∧
        Spec.Movie Spec.inFile ts dur now moov ∧ Spec.MovieOutline calls moov ∧ Spec.EachTrak Spec.Tables calls es moov ∧
        Spec.EachTrak (fun a ss trak => Spec.Parameters Spec.inFile a ss.length trak) calls es moov ∧
        (Spec.DisciplinedCalls calls → (Spec.traks moov).map (Spec.trakSamples w.os.data) =
          (List.range (Spec.afterAll [] calls).length).map fun i => some ((Spec.samplesOf i es).map (·.data)))) := by
  obtain ⟨w1, s, es, hw1, hinv, hs, hses, he1, he2, he3, hP⟩ := faststart_any os hos f ts dur now calls hf
  refine ⟨s, es, hses, he1, ?_⟩
  intro hfit hn hsz hc
  obtain ⟨-, c1, c2, c3, c4⟩ := faststart_fit hinv he2 hfit
  obtain ⟨w, S, hw, hfile, hS, hS2⟩ := FaststartWriter.finish_eq hP c1 c2 c3 c4
  refine ⟨w, hw, ?_⟩
  intro file env
  have hmax := moovSize_max (m := s.writer.mvhd) c1 hS2 c4
  unfold FaststartWriter.sizeBound at hfit
  rw [faststartFile_total, moovAt_eq] at hfit
  have hM : s.writer.mvhd = newMvhd now ts dur s.writer.next_track_id := by
    unfold FaststartWriter.mvhd
    rw [hP.2.2.2.2.2.2.1, hP.2.2.2.2.2.2.2.1, hP.2.2.2.2.2.2.2.2]
  have hlist : (FaststartWriter.finals s.tracks).map (·.shift S) = s.tracks.map fun t => t.finalize.shift S := by
    rw [FaststartWriter.finals, List.map_map]; rfl
  have hsm : ∀ t ∈ (FaststartWriter.finals s.tracks).map (·.shift S), t.Small := by
    rw [hlist]
    intro t ht
    obtain ⟨u, hu, rfl⟩ := List.mem_map.mp ht
    exact (tracks_small hs he2 (fun i => by have := hn i; omega) hc u hu).shift S
  have hmf := moov_fit s.writer.mvhd _ hsm
  have hmty : (moovTree s.writer.mvhd ((FaststartWriter.finals s.tracks).map (·.shift S))).box.type = fourcc "moov" := rfl
  have htot : Tree.totalList (Spec.faststartFile f (Spec.mdat es)
      (moovTree s.writer.mvhd ((FaststartWriter.finals s.tracks).map (·.shift S)))) < 2 ^ 63 := by
    rw [faststartFile_total]
    unfold moovSize at hmax
    omega
  have hparts : ∀ L : List Byte, ∀ moov : Tree, moov.Fit → moov.box.type = fourcc "moov" →
      FitList (Spec.faststartFile f L moov) ∧
      (Spec.faststartFile f L moov).map (·.box.type) = ["ftyp", "moov", "mdat"].map fourcc ∧
      Spec.topLevel "ftyp" (Spec.faststartFile f L moov) = some (Spec.leaf "ftyp" (.ftyp f)) ∧
      Spec.topLevel "mdat" (Spec.faststartFile f L moov) = some (Spec.leaf "mdat" (.opaq ⟨L⟩)) ∧
      Spec.topLevel "moov" (Spec.faststartFile f L moov) = some moov := by
    intro L moov h1 h2
    unfold Spec.faststartFile
    refine ⟨⟨ftyp_fit f, h1, mdat_fit _, trivial⟩, ?_, ?_, ?_, ?_⟩
    · simp only [List.map_cons, List.map_nil, h2]; rfl
    all_goals simp only [Spec.topLevel]
    · rw [List.find?_cons_of_pos (by rw [decide_eq_true_eq]; rfl)]
    · rw [List.find?_cons_of_neg (by rw [decide_eq_true_eq]; show fourcc "ftyp" ≠ fourcc "mdat"; decide +kernel),
        List.find?_cons_of_neg (by rw [decide_eq_true_eq, h2]; decide +kernel),
        List.find?_cons_of_pos (by rw [decide_eq_true_eq]; rfl)]
    · rw [List.find?_cons_of_neg (by rw [decide_eq_true_eq]; show fourcc "ftyp" ≠ fourcc "moov"; decide +kernel),
        List.find?_cons_of_pos (by rw [decide_eq_true_eq]; exact h2)]
  obtain ⟨p1, p2, p3, p4, p5⟩ := hparts (Spec.mdat es) _ hmf hmty
  obtain ⟨moov', r1, r2⟩ := reads_movie { file, env, data := w.os.data } rfl ["ftyp", "moov", "mdat"] f (Spec.mdat es) _ _ hfile htot
    p1 p2 p3 p4 p5
  refine ⟨moov', r1, ?_, ?_, ?_, ?_, ?_⟩
  · rw [hM] at r2
    exact Movie.kept (movie_spec ts dur now s.writer.next_track_id _) r2
  · rw [hlist] at r2
    exact MovieOutline.kept (movie_outline _ (fun t => t.finalize.shift S) (fun a t h => h.finalize.shift S) hs) r2
  · rw [hlist] at r2
    exact EachTrak.kept (each_trak s.writer.mvhd Spec.Tables (fun t => t.finalize.shift S) hs he2
      (fun i a t h1 h2 => (tables_of h1 h2 (by have := hn i; omega) S _).2)) r2 (fun _ _ _ _ => Tables.kept)
  · rw [hlist] at r2
    exact EachTrak.kept (each_trak s.writer.mvhd (fun a ss trak => Spec.Parameters Spec.inObjects a ss.length trak)
      (fun t => t.finalize.shift S) hs he2
      (fun i a t h1 h2 => (parameters_of h1 h2 S _).2)) r2 (fun _ _ _ _ => Parameters.kept)
  · intro hd
    have := faststart_samples s.writer.mvhd S hinv he1 he2 he3 hd hn hsz (by unfold moovSize at hS; omega) (by omega) hfile
    have hx : ((List.range (Spec.afterAll [] calls).length).map fun i => some ((Spec.samplesOf i es).map (·.data))) =
        ((List.range (Spec.afterAll [] calls).length).map fun i => (Spec.samplesOf i es).map (·.data)).map some := by
      rw [List.map_map]; rfl
    rw [hx] at this ⊢
    exact trakSamples_kept r2.traks this

end Mp4
