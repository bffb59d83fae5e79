import Verif.Lemmas.Project
import Verif.Props.SameMovie

/-! # C91, C92: tracks do not influence each other, and where chunks end matters to nothing else -/

namespace Mp4

open Spec (without withoutList withoutOffsets withoutChunks)

theorem stsc_noOffset (cs : List ChunkInfo) : ∀ (k : Int) (n : BitVec 32), stscGo k n (cs.map (·.noOffset)) = stscGo k n cs := by
  induction cs with
  | nil => intro k n; rfl
  | cons c cs ih => intro k n; simp only [List.map_cons, stscGo, ih]; rfl

theorem noOffsets_trak {t t' : Track} (h : t.noOffsets = t'.noOffsets) (p : List BoxType) :
    withoutOffsets (t.trak p) = withoutOffsets (t'.trak p) := by
  obtain ⟨h1, h2, -⟩ := noOffsets_eq h
  rw [h1]
  refine (without_trak Spec.holdsOffsets (fun _ h => h) rfl t _ _ p ?_).symm
  intro q
  unfold Track.stsc make_stsc_entries
  dsimp only
  rw [← stsc_noOffset t'.chunk_infos, ← h2, stsc_noOffset]

theorem noChunks_trak {t t' : Track} (h : t.noChunks = t'.noChunks) (p : List BoxType) :
    withoutChunks (t.trak p) = withoutChunks (t'.trak p) := by
  rw [noChunks_eq h]
  have ho : ∀ d, Spec.holdsOffsets d = true → Spec.holdsChunks d = true := by
    intro d hd
    unfold Spec.holdsChunks
    split
    · rfl
    · exact hd
  refine (without_trak Spec.holdsChunks ho rfl t _ _ p ?_).symm
  intro q
  unfold Track.stsc
  rw [without_hidden _ _ _ _ _ rfl, without_hidden _ _ _ _ _ rfl]

theorem map_through {α β γ : Type} {f : α → β} {g : α → γ} (h : ∀ x y, f x = f y → g x = g y) : ∀ {l l' : List α},
    l.map f = l'.map f → l.map g = l'.map g := by
  intro l
  induction l with
  | nil => intro l' e; cases l' with
    | nil => rfl
    | cons y l' => cases e
  | cons x l ih =>
    intro l' e
    cases l' with
    | nil => cases e
    | cons y l' =>
      simp only [List.map_cons, List.cons.injEq] at e ⊢
      exact ⟨h _ _ e.1, ih e.2⟩

/-- The track boxes of two lists of tracks, as far as they do not say where chunks are. -/
theorem alone_traks (ts us : List Track) (i : Nat)
    (h : us.map (·.noOffsets) = ((ts.map (·.noOffsets))[i]?).toList) (g : Track → Tree)
    (hg : ∀ x y : Track, x.noOffsets = y.noOffsets → g x = g y) :
    us.map g = ((ts.map g)[i]?).toList := by
  rw [List.getElem?_map] at h ⊢
  cases hi : ts[i]? with
  | none =>
    rw [hi] at h
    simp only [Option.map_none, Option.toList_none, List.map_eq_nil_iff] at h
    rw [h]
    rfl
  | some t =>
    rw [hi] at h
    exact map_through (l := us) (l' := [t]) hg h

/-- **C91.** Tracks do not influence each other.  For every program with a `SimpleWriter` and every one of its tracks: the `trak` box of
this track in the finished file is the only `trak` box in the file of a program, with a writer of its own and other
parameters, that makes just the calls on this track - the chunk offsets left out. -/
theorem C91_simple (os os' : OStream) (hos : os.data = []) (hos' : os'.data = []) (f f' : Ftyp) (ts ts' : BitVec 32)
    (dur dur' now now' : BitVec 64) (calls : List Call) (i : Nat)
    (hf : f.compatible_brands.length < 2 ^ 32) (hf' : f'.compatible_brands.length < 2 ^ 32) :
    ∃ s s' es es', SimpleWriter.session os f ts dur now calls = .ok s ∧ Spec.Expands [] calls es ∧
      SimpleWriter.session os' f' ts' dur' now' (Spec.callsOn i 0 calls) = .ok s' ∧ Spec.Expands [] (Spec.callsOn i 0 calls) es' ∧
      (Tree.totalList (Spec.simpleFile f (Spec.mdat es) (SimpleWriter.moovOf s)) < 2 ^ 64 →
       Tree.totalList (Spec.simpleFile f' (Spec.mdat es') (SimpleWriter.moovOf s')) < 2 ^ 64 →
       ∃ w w' moov moov', SimpleWriter.finish s = .ok w ∧ SimpleWriter.finish s' = .ok w' ∧
        w.os.data = Tree.encodeList (Spec.simpleFile f (Spec.mdat es) moov) ∧
        w'.os.data = Tree.encodeList (Spec.simpleFile f' (Spec.mdat es') moov') ∧
        (Spec.traks moov').map withoutOffsets = (((Spec.traks moov).map withoutOffsets)[i]?).toList) := by
  obtain ⟨w1, s, es, hw1, -, hs, hses, he1, -, -, hP, hmoov⟩ := simple_any os hos f ts dur now calls hf
  obtain ⟨w1', s', es', hw1', -, hs', hses', he1', -, -, hP', hmoov'⟩ :=
    simple_any os' hos' f' ts' dur' now' (Spec.callsOn i 0 calls) hf'
  refine ⟨s, s', es, es', hses, he1, hses', he1', ?_⟩
  intro hfit hfit'
  rw [hmoov, simpleFile_total] at hfit
  rw [hmoov', simpleFile_total] at hfit'
  obtain ⟨w, hw, hfile⟩ := SimpleWriter.finish_eq hP hfit
  obtain ⟨w', hw', hfile'⟩ := SimpleWriter.finish_eq hP' hfit'
  refine ⟨w, w', _, _, hw, hw', by rw [hfile, headBoxes_simpleFile], by rw [hfile', headBoxes_simpleFile], ?_⟩
  have hr := callsOn_reached i calls (⟨[], w1⟩ : Session SimpleWriter) (⟨[], w1'⟩ : Session SimpleWriter) rfl
  rw [show (Session.mk ([] : List Track) w1).tracks.length = 0 from rfl, ← hs, ← hs'] at hr
  rw [traks_moovTree, traks_moovTree]
  simp only [List.map_map]
  exact alone_traks s.tracks s'.tracks i hr _
    (fun x y h => noOffsets_trak (noOffsets_finalize h) _)

/-- **C91** The same with a `FaststartWriter`. -/
theorem C91_faststart (os os' : OStream) (hos : os.data = []) (hos' : os'.data = []) (f f' : Ftyp) (ts ts' : BitVec 32)
    (dur dur' now now' : BitVec 64) (calls : List Call) (i : Nat)
    (hf : f.compatible_brands.length < 2 ^ 32) (hf' : f'.compatible_brands.length < 2 ^ 32) :
    ∃ s s' es es', FaststartWriter.session os f ts dur now calls = .ok s ∧ Spec.Expands [] calls es ∧
      FaststartWriter.session os' f' ts' dur' now' (Spec.callsOn i 0 calls) = .ok s' ∧ Spec.Expands [] (Spec.callsOn i 0 calls) es' ∧
      (FaststartWriter.sizeBound s f (Spec.mdat es) < 2 ^ 63 → FaststartWriter.sizeBound s' f' (Spec.mdat es') < 2 ^ 63 →
       ∃ w w' moov moov', FaststartWriter.finish s = .ok w ∧ FaststartWriter.finish s' = .ok w' ∧
        w.os.data = Tree.encodeList (Spec.faststartFile f (Spec.mdat es) moov) ∧
        w'.os.data = Tree.encodeList (Spec.faststartFile f' (Spec.mdat es') moov') ∧
        (Spec.traks moov').map withoutOffsets = (((Spec.traks moov).map withoutOffsets)[i]?).toList) := by
  obtain ⟨w1, s, es, hw1, hinv, hs, hses, he1, he2, -, hP⟩ := faststart_any os hos f ts dur now calls hf
  obtain ⟨w1', s', es', hw1', hinv', hs', hses', he1', he2', -, hP'⟩ :=
    faststart_any os' hos' f' ts' dur' now' (Spec.callsOn i 0 calls) hf'
  refine ⟨s, s', es, es', hses, he1, hses', he1', ?_⟩
  intro hfit hfit'
  obtain ⟨-, c1, c2, c3, c4⟩ := faststart_fit hinv he2 hfit
  obtain ⟨w, S, hw, hfile, -, -⟩ := FaststartWriter.finish_eq hP c1 c2 c3 c4
  obtain ⟨-, c1', c2', c3', c4'⟩ := faststart_fit hinv' he2' hfit'
  obtain ⟨w', S', hw', hfile', -, -⟩ := FaststartWriter.finish_eq hP' c1' c2' c3' c4'
  refine ⟨w, w', _, _, hw, hw', hfile, hfile', ?_⟩
  have hr := callsOn_reached i calls (⟨[], w1⟩ : Session FaststartWriter) (⟨[], w1'⟩ : Session FaststartWriter) rfl
  rw [show (Session.mk ([] : List Track) w1).tracks.length = 0 from rfl, ← hs, ← hs'] at hr
  have hg : ∀ (S : Nat) (l : List Track), ((l.map (·.finalize)).map (·.shift S)).map
      (fun t => withoutOffsets (t.trak [fourcc "moov"])) = l.map fun t => withoutOffsets (t.finalize.trak [fourcc "moov"]) := by
    intro S l
    simp only [List.map_map]
    apply List.map_congr_left
    intro t _
    exact withoutOffsets_trak t.finalize S _
  rw [traks_moovTree, traks_moovTree]
  unfold FaststartWriter.finals
  have e := alone_traks s.tracks s'.tracks i hr
    (fun t => withoutOffsets (t.finalize.trak [fourcc "moov"])) (fun x y h => noOffsets_trak (noOffsets_finalize h) _)
  rw [← hg S s.tracks, ← hg S' s'.tracks] at e
  simp only [List.map_map] at e ⊢
  exact e

/-- **C92.** Where a program ends chunks matters to nothing but `stsc`, `stco` and `co64`.  For every two programs with a `SimpleWriter` that
differ in calls of `terminateCurrentChunk` only: the finished files have the same `ftyp`, the same bytes in `mdat`, and
`moov` boxes that differ in nothing but those tables. -/
theorem C92_simple (os : OStream) (hos : os.data = []) (f : Ftyp) (ts : BitVec 32) (dur now : BitVec 64) (calls calls' : List Call)
    (hc : calls.filter (fun c => !Spec.endsChunk c) = calls'.filter (fun c => !Spec.endsChunk c))
    (hf : f.compatible_brands.length < 2 ^ 32) :
    ∃ s s' es, SimpleWriter.session os f ts dur now calls = .ok s ∧ SimpleWriter.session os f ts dur now calls' = .ok s' ∧
      Spec.Expands [] calls es ∧
      (Tree.totalList (Spec.simpleFile f (Spec.mdat es) (SimpleWriter.moovOf s)) < 2 ^ 64 →
       Tree.totalList (Spec.simpleFile f (Spec.mdat es) (SimpleWriter.moovOf s')) < 2 ^ 64 →
       ∃ w w' moov moov', SimpleWriter.finish s = .ok w ∧ SimpleWriter.finish s' = .ok w' ∧
        w.os.data = Tree.encodeList (Spec.simpleFile f (Spec.mdat es) moov) ∧
        w'.os.data = Tree.encodeList (Spec.simpleFile f (Spec.mdat es) moov') ∧
        withoutChunks moov = withoutChunks moov') := by
  obtain ⟨w1, s, es, hw1, -, hs, hses, he1, -, -, hP, hmoov⟩ := simple_any os hos f ts dur now calls hf
  obtain ⟨w1', s', es', hw1', -, hs', hses', -, -, -, hP', hmoov'⟩ := simple_any os hos f ts dur now calls' hf
  have hww : w1 = w1' := by rw [hw1] at hw1'; exact Except.ok.inj hw1'
  subst hww
  obtain ⟨t1, t2⟩ := noChunks_reached calls (⟨[], w1⟩ : Session SimpleWriter) ⟨[], w1⟩ rfl rfl
  obtain ⟨t1', t2'⟩ := noChunks_reached calls' (⟨[], w1⟩ : Session SimpleWriter) ⟨[], w1⟩ rfl rfl
  rw [← hs, hc, ← t1'] at t1
  rw [← hs, hc, ← t2'] at t2
  rw [← hs'] at t1 t2
  have hL : Spec.mdat es' = Spec.mdat es := by
    apply OStream.write_cancel (OStream.mk (ftypTree f).encode ((ftypTree f).total + 16))
    rw [← hP'.1, ← hP.1, t2]
  rw [hL] at hP'
  refine ⟨s, s', es, hses, hses', he1, ?_⟩
  intro hfit hfit'
  rw [hmoov, simpleFile_total] at hfit
  rw [hmoov', simpleFile_total] at hfit'
  obtain ⟨w, hw, hfile⟩ := SimpleWriter.finish_eq hP hfit
  obtain ⟨w', hw', hfile'⟩ := SimpleWriter.finish_eq hP' hfit'
  refine ⟨w, w', _, _, hw, hw', by rw [hfile, headBoxes_simpleFile], by rw [hfile', headBoxes_simpleFile], ?_⟩
  rw [t2]
  apply without_moov
  rw [List.map_map, List.map_map]
  exact map_through (fun x y h => noChunks_trak (noChunks_finalize h) _) t1

/-- **C92** The same with a `FaststartWriter`. -/
theorem C92_faststart (os : OStream) (hos : os.data = []) (f : Ftyp) (ts : BitVec 32) (dur now : BitVec 64) (calls calls' : List Call)
    (hc : calls.filter (fun c => !Spec.endsChunk c) = calls'.filter (fun c => !Spec.endsChunk c))
    (hf : f.compatible_brands.length < 2 ^ 32) :
    ∃ s s' es, FaststartWriter.session os f ts dur now calls = .ok s ∧ FaststartWriter.session os f ts dur now calls' = .ok s' ∧
      Spec.Expands [] calls es ∧
      (FaststartWriter.sizeBound s f (Spec.mdat es) < 2 ^ 63 → FaststartWriter.sizeBound s' f (Spec.mdat es) < 2 ^ 63 →
       ∃ w w' moov moov', FaststartWriter.finish s = .ok w ∧ FaststartWriter.finish s' = .ok w' ∧
        w.os.data = Tree.encodeList (Spec.faststartFile f (Spec.mdat es) moov) ∧
        w'.os.data = Tree.encodeList (Spec.faststartFile f (Spec.mdat es) moov') ∧
        withoutChunks moov = withoutChunks moov') := by
  obtain ⟨w1, s, es, hw1, hinv, hs, hses, he1, he2, -, hP⟩ := faststart_any os hos f ts dur now calls hf
  obtain ⟨w1', s', es', hw1', hinv', hs', hses', -, he2', -, hP'⟩ := faststart_any os hos f ts dur now calls' hf
  have hww : w1 = w1' := by rw [hw1] at hw1'; exact Except.ok.inj hw1'
  subst hww
  obtain ⟨t1, t2⟩ := noChunks_reached calls (⟨[], w1⟩ : Session FaststartWriter) ⟨[], w1⟩ rfl rfl
  obtain ⟨t1', t2'⟩ := noChunks_reached calls' (⟨[], w1⟩ : Session FaststartWriter) ⟨[], w1⟩ rfl rfl
  rw [← hs, hc, ← t1'] at t1
  rw [← hs, hc, ← t2'] at t2
  rw [← hs'] at t1 t2
  have hL : Spec.mdat es' = Spec.mdat es := by
    rw [← hP'.2.1, ← hP.2.1, t2]
  rw [hL] at hP'
  refine ⟨s, s', es, hses, hses', he1, ?_⟩
  intro hfit hfit'
  obtain ⟨-, c1, c2, c3, c4⟩ := faststart_fit hinv he2 hfit
  obtain ⟨w, S, hw, hfile, -, -⟩ := FaststartWriter.finish_eq hP c1 c2 c3 c4
  rw [← hL] at hfit'
  obtain ⟨-, c1', c2', c3', c4'⟩ := faststart_fit hinv' he2' hfit'
  rw [hL] at c1' c3' c4'
  obtain ⟨w', S', hw', hfile', -, -⟩ := FaststartWriter.finish_eq hP' c1' c2' c3' c4'
  refine ⟨w, w', _, _, hw, hw', hfile, hfile', ?_⟩
  rw [t2]
  apply without_moov
  unfold FaststartWriter.finals
  simp only [List.map_map]
  have hsh : ∀ (t : Track) (S : Nat) (p : List BoxType), withoutChunks ((t.shift S).trak p) = withoutChunks (t.trak p) := by
    intro t S p
    exact noChunks_trak (t := t.shift S) (t' := t) rfl p
  have hg : ∀ (S : Nat) (l : List Track), l.map ((fun t => without Spec.holdsChunks (t.trak [fourcc "moov"])) ∘ (Track.shift S) ∘ Track.finalize) =
      l.map fun t => withoutChunks (t.finalize.trak [fourcc "moov"]) := by
    intro S l
    apply List.map_congr_left
    intro t _
    exact hsh t.finalize S _
  have e := map_through (g := fun t : Track => withoutChunks (t.finalize.trak [fourcc "moov"]))
    (fun x y h => noChunks_trak (noChunks_finalize h) _) t1
  rw [← hg S s.tracks, ← hg S' s'.tracks] at e
  exact e

end Mp4
