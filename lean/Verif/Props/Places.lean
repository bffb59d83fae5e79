import Verif.Props.Writer
import Verif.Props.Faststart
import Verif.Lemmas.Places

/-! # C77: every byte of `mdat` belongs to exactly one sample -/

namespace Mp4

theorem simple_ranges {f : Ftyp} {ts : BitVec 32} {dur now : BitVec 64} {calls : List Call} {w1 : SimpleWriter}
    {s : Session SimpleWriter} {es : List Event} (M : Mvhd) (hinv : SimpleWriter.Inv f (newMvhd now ts dur 1) w1 [])
    (he1 : Spec.Expands [] calls es) (he2 : Session.Reached idStep w1 s es) (he3 : ClassesOf s.tracks (Spec.afterAll [] calls))
    (hd : Spec.DisciplinedCalls calls) (hn : ∀ i, (Spec.samplesOf i es).length < 2 ^ 32 - 1)
    (hsz : ∀ i, ∀ x ∈ Spec.samplesOf i es, x.data.length < 2 ^ 32)
    (hfit : (ftypTree f).total + 16 + (Spec.mdat es).length < 2 ^ 64) :
    (Spec.traks (moovTree M (s.tracks.map (·.finalize)))).map Spec.trakRanges =
      ((List.range (Spec.afterAll [] calls).length).map fun i => Spec.places i ((ftypTree f).total + 16) es).map some := by
  obtain ⟨-, -, hT⟩ := Reached.inv idStep (SimpleWriter.Inv f (newMvhd now ts dur 1)) ((ftypTree f).total + 16)
    SimpleWriter.Inv.tell SimpleWriter.Inv.add SimpleWriter.Inv.step he2 hinv (hd.events he1)
    (fun i => by have := hn i; omega)
  rw [traks_moovTree, List.map_map, List.map_map, List.map_map, ← he3.1]
  apply List.ext_getElem
  · simp
  · intro i h1 h2
    simp only [List.getElem_map, Function.comp_apply, List.getElem_range]
    have hi : i < s.tracks.length := by simpa using h1
    obtain ⟨G, g1, g2, g3, g4, g5, g6, g7⟩ := (hT i s.tracks[i] (List.getElem?_eq_getElem hi)).finalize (by have := hn i; omega)
    rw [trak_ranges (Spec.mdat es) _ (Spec.samplesOf i es) _ G _ g1 g2 g3 g4 g5 g6 (hn i) (hsz i) (by omega), ← g7,
      ← Spec.places_shift, Nat.add_zero]

theorem faststart_ranges {f : Ftyp} {ts : BitVec 32} {dur now : BitVec 64} {calls : List Call} {w1 : FaststartWriter}
    {s : Session FaststartWriter} {es : List Event} (M : Mvhd) (S : Nat) (hinv : FaststartWriter.Inv f ts dur now w1 [])
    (he1 : Spec.Expands [] calls es) (he2 : Session.Reached idStep w1 s es) (he3 : ClassesOf s.tracks (Spec.afterAll [] calls))
    (hd : Spec.DisciplinedCalls calls) (hn : ∀ i, (Spec.samplesOf i es).length < 2 ^ 32 - 1)
    (hsz : ∀ i, ∀ x ∈ Spec.samplesOf i es, x.data.length < 2 ^ 32) (hS2 : S + (Spec.mdat es).length < 2 ^ 64) :
    (Spec.traks (moovTree M ((FaststartWriter.finals s.tracks).map (·.shift S)))).map Spec.trakRanges =
      ((List.range (Spec.afterAll [] calls).length).map fun i => Spec.places i S es).map some := by
  obtain ⟨-, -, hT⟩ := Reached.inv idStep (FaststartWriter.Inv f ts dur now) 0
    FaststartWriter.Inv.tell FaststartWriter.Inv.add FaststartWriter.Inv.step he2 hinv (hd.events he1)
    (fun i => by have := hn i; omega)
  rw [traks_moovTree, FaststartWriter.finals, List.map_map, List.map_map, List.map_map, List.map_map, ← he3.1]
  apply List.ext_getElem
  · simp
  · intro i h1 h2
    simp only [List.getElem_map, Function.comp_apply, List.getElem_range]
    have hi : i < s.tracks.length := by simpa using h1
    obtain ⟨G, g1, g2, g3, g4, g5, g6, g7⟩ := (hT i s.tracks[i] (List.getElem?_eq_getElem hi)).finalize (by have := hn i; omega)
    rw [trak_ranges (Spec.mdat es) S (Spec.samplesOf i es) (Track.shift S s.tracks[i].finalize) G _ (by
        show (s.tracks[i].finalize.chunk_infos).map _ = _
        rw [g1]
        exact chunkInfo_shift S G) g2 g3 g4 g5 g6 (hn i) (hsz i) (by omega), ← g7, ← Spec.places_shift, Nat.add_zero]

/-- **C77** `SimpleWriter`: for every program that keeps to the rule for callers, the tables of the tracks name, for each track, the places
where its samples were stored, in the order they were added; every byte of the content of `mdat` belongs to exactly one sample of one
track, and no sample has a byte elsewhere. -/
theorem C77_simple (os : OStream) (hos : os.data = []) (f : Ftyp) (ts : BitVec 32) (dur now : BitVec 64) (calls : List Call)
    (hd : Spec.DisciplinedCalls calls) (hf : f.compatible_brands.length < 2 ^ 32) :
    ∃ s es, SimpleWriter.session os f ts dur now calls = .ok s ∧ Spec.Expands [] calls es ∧
      (Tree.totalList (Spec.simpleFile f (Spec.mdat es) (SimpleWriter.moovOf s)) < 2 ^ 64 →
       (∀ i, (Spec.samplesOf i es).length < 2 ^ 32 - 1) →
       (∀ i, ∀ x ∈ Spec.samplesOf i es, x.data.length < 2 ^ 32) →
       ∃ w moov base tracks, SimpleWriter.finish s = .ok w ∧
        w.os.data = Tree.encodeList (Spec.simpleFile f (Spec.mdat es) moov) ∧
        slice w.os.data base (Spec.mdat es).length = Spec.mdat es ∧
        (Spec.traks moov).map Spec.trakRanges = tracks.map some ∧
        tracks = (List.range (Spec.afterAll [] calls).length).map (fun i => Spec.places i base es) ∧
        Spec.Partition tracks base (Spec.mdat es).length) := by
  obtain ⟨w1, s, es, hw1, hinv, -, hses, he1, he2, he3, hP, hmoov⟩ := simple_any os hos f ts dur now calls hf
  refine ⟨s, es, hses, he1, ?_⟩
  intro hfit hn hsz
  rw [hmoov, simpleFile_total] at hfit
  obtain ⟨w, hw, hfile⟩ := SimpleWriter.finish_eq hP hfit
  refine ⟨w, _, _, _, hw, by rw [hfile, headBoxes_simpleFile], ?_, simple_ranges _ hinv he1 he2 he3 hd hn hsz (by omega), rfl,
    Spec.places_partition _ _ (expands_tracks he1) _⟩
  obtain ⟨H, hH, hhead⟩ := SimpleWriter.headBoxes_eq f (Spec.mdat es)
  have hE := good_encode_length (ftypTree_good f)
  rw [hfile, SimpleWriter.encodeList_append, hhead, slice, List.append_assoc, List.drop_left' (by simp [hE, hH]), List.take_left' rfl]

/-- **C77** The same for `FaststartWriter`. -/
theorem C77_faststart (os : OStream) (hos : os.data = []) (f : Ftyp) (ts : BitVec 32) (dur now : BitVec 64) (calls : List Call)
    (hd : Spec.DisciplinedCalls calls) (hf : f.compatible_brands.length < 2 ^ 32) :
    ∃ s es, FaststartWriter.session os f ts dur now calls = .ok s ∧ Spec.Expands [] calls es ∧
      (FaststartWriter.sizeBound s f (Spec.mdat es) < 2 ^ 63 →
       (∀ i, (Spec.samplesOf i es).length < 2 ^ 32 - 1) →
       (∀ i, ∀ x ∈ Spec.samplesOf i es, x.data.length < 2 ^ 32) →
       ∃ w moov base tracks, FaststartWriter.finish s = .ok w ∧
        w.os.data = Tree.encodeList (Spec.faststartFile f (Spec.mdat es) moov) ∧
        slice w.os.data base (Spec.mdat es).length = Spec.mdat es ∧
        (Spec.traks moov).map Spec.trakRanges = tracks.map some ∧
        tracks = (List.range (Spec.afterAll [] calls).length).map (fun i => Spec.places i base es) ∧
        Spec.Partition tracks base (Spec.mdat es).length) := by
  obtain ⟨w1, s, es, hw1, hinv, -, hses, he1, he2, he3, hP⟩ := faststart_any os hos f ts dur now calls hf
  refine ⟨s, es, hses, he1, ?_⟩
  intro hfit hn hsz
  obtain ⟨-, c1, c2, c3, c4⟩ := faststart_fit hinv he2 hfit
  obtain ⟨w, S, hw, hfile, hS, hS2⟩ := FaststartWriter.finish_eq hP c1 c2 c3 c4
  refine ⟨w, _, S, _, hw, hfile, ?_, faststart_ranges _ S hinv he1 he2 he3 hd hn hsz (by omega), rfl,
    Spec.places_partition _ _ (expands_tracks he1) _⟩
  have hE := good_encode_length (ftypTree_good f)
  generalize hM : moovTree _ _ = moov at hfile
  have hME : moov.encode.length = moov.total := by rw [← hM]; exact good_encode_length (moovTree_good _ _)
  have hfile' : w.os.data = ((ftypTree f).encode ++ moov.encode ++ mdatHeader (Spec.mdat es)) ++ Spec.mdat es := by
    rw [hfile]
    have hm := mdat_encode (Spec.mdat es) [fourcc "mdat"]
    simp only [Spec.faststartFile, Tree.encodeList, Spec.leaf, hm, ftypTree, List.append_nil, List.append_assoc]
  have hpre : ((ftypTree f).encode ++ moov.encode ++ mdatHeader (Spec.mdat es)).length = S := by
    rw [List.length_append, List.length_append, hE, hME, mdatHeader_length, ← hM]
    unfold moovSize at hS
    omega
  rw [hfile', slice, List.drop_left' hpre, List.take_of_length_le (Nat.le_refl _)]

end Mp4
