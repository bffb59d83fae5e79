import Verif.Props.Copies
import Verif.Props.ReadMovie

/-! # C93: the files of both writers are nested eight boxes deep at most, and cheap to read -/

namespace Mp4
open Tree

theorem stsd_height (c : Codec) (i ts : BitVec 32) (p : List BoxType) : (c.stsd i ts p).height = 3 := by
  unfold Codec.stsd
  cases c <;> rfl

theorem stbl_height (t : Track) (p : List BoxType) : Tree.heightList (t.stblChildren.map (· p)) = 3 := by
  have h := stsd_height t.codec t.track_id t.timescale p
  have h1 : (t.stts p).height = 1 := rfl
  have h2 : (t.stss p).height = 1 := rfl
  have h3 : (t.stsc p).height = 1 := rfl
  have h4 : (t.stsz p).height = 1 := rfl
  have h5 : (t.offsets p).height = 1 := rfl
  have h6 : ∀ r, Tree.heightList ((t.rollGroups r).map (· p)) = 1 := fun r => rfl
  unfold Track.stblChildren
  cases hc : t.codec <;> rw [hc] at h <;>
    simp only [List.map_cons, List.map_nil, List.cons_append, List.nil_append, Tree.heightList, h, h1, h2, h3, h4, h5, h6] <;>
    rfl

theorem trak_height (t : Track) (p : List BoxType) : (t.trak p).height = 7 := by
  have h1 : ∀ q, (t.mediaHeader q).height = 1 := by
    intro q; unfold Track.mediaHeader; cases t.codec.handler <;> rfl
  have h2 : ∀ q, (Track.dinf q).height = 3 := fun q => rfl
  have hm : ∀ (ty : BoxType) (d : BoxData) (cs : List Mk) (q : List BoxType),
      (mkInfo ty d cs q).height = Tree.heightList (cs.map (· (q ++ [ty]))) + 1 := fun _ _ _ _ => rfl
  unfold Track.trak
  simp only [hm, List.map_cons, List.map_nil, Tree.heightList, h1, h2, stbl_height]
  rfl

/-- A movie box is nested eight deep when there are tracks. -/
theorem moov_height (m : Mvhd) (ts : List Track) : (moovTree m ts).height = if ts = [] then 6 else 8 := by
  have hu : (udta [fourcc "moov"]).height = 5 := rfl
  have hl : ∀ l : List Track, Tree.heightList (l.map (·.trak [fourcc "moov"]) ++ [udta [fourcc "moov"]]) = if l = [] then 5 else 7 := by
    intro l
    induction l with
    | nil => rfl
    | cons t l ih =>
      rw [List.map_cons, List.cons_append, Tree.heightList, ih, trak_height]
      split <;> rfl
  unfold moovTree
  rw [Tree.height, Tree.heightList, hl]
  split <;> rfl

mutual
theorem readBack_height (sr : SimpleReader) (path : List BoxType) : ∀ (t : Tree) (o : Nat), (Tree.readBack sr path o t).height = t.height
  | .node b p ls, o => by
    rw [Tree.readBack, Tree.height, Tree.height, readBackList_height]
theorem readBackList_height (sr : SimpleReader) (path : List BoxType) : ∀ (ts : List Tree) (o : Nat),
    Tree.heightList (Tree.readBackList sr path o ts) = Tree.heightList ts
  | [], o => by rw [Tree.readBackList]
  | t :: ts, o => by rw [Tree.readBackList, Tree.heightList, Tree.heightList, readBack_height, readBackList_height]
end

theorem cheap_to_read (sr : SimpleReader) (hm : sr.map = stdBoxMap) (ts : List Tree) (hd : sr.data = Tree.encodeList ts)
    (hl : Tree.totalList ts < 2 ^ 63) (hfit : FitList ts) : Spec.CheapToRead sr (Tree.heightList ts) := by
  have hr := C61_any_forest sr ts hd hl (FitList.surviving sr hm ts 0 hfit)
  have hw := survivingList_writable sr ts false 0 (FitList.surviving sr hm ts 0 hfit)
  have he : Tree.AllList Tree.Encodable ts := by
    refine Tree.AllList.mono (fun b hb => ⟨?_, ?_⟩) ts hw
    · obtain ⟨n, hn⟩ := hb.1
      exact BoxData.writable_of_ok b.data hn
    · have hl := hb.2
      cases hd : b.data <;> first | exact hl _ hd | trivial
  have hlen : sr.data.length < 2 ^ 63 := by rw [hd, Tree.encodeList_length ts he]; exact hl
  have hh := readBackList_height sr [] ts 0
  refine ⟨_, _, hr, hh, fun room => ?_, ?_⟩
  · rw [C88_exact sr _ _ hr room, hh]
  · have := (C89_accepted sr hlen _ _ hr).1
    rw [hh] at this
    exact this

private theorem simpleFile_height (f : Ftyp) (L : List Byte) (moov : Tree) (h : 1 ≤ moov.height) :
    Tree.heightList (Spec.simpleFile f L moov) = moov.height := by
  have hl : ∀ n d, (Spec.leaf n d).height = 1 := fun _ _ => rfl
  unfold Spec.simpleFile
  split <;> simp only [Tree.heightList, hl] <;> omega

private theorem faststartFile_height (f : Ftyp) (L : List Byte) (moov : Tree) (h : 1 ≤ moov.height) :
    Tree.heightList (Spec.faststartFile f L moov) = moov.height := by
  have hl : ∀ n d, (Spec.leaf n d).height = 1 := fun _ _ => rfl
  unfold Spec.faststartFile
  simp only [Tree.heightList, hl]
  omega

private theorem moov_height_calls {α : Type} (m : Mvhd) (ts : List α) (g : α → Track) (cs : List Codec) (h : ts.length = cs.length) :
    (moovTree m (ts.map g)).height = if cs = [] then 6 else 8 := by
  rw [moov_height]
  cases ts with
  | nil =>
    cases cs with
    | nil => rfl
    | cons c cs => cases h
  | cons t ts =>
    cases cs with
    | nil => cases h
    | cons c cs => rfl

/-- **C93.** Whatever a program does with `SimpleWriter` and its tracks, the boxes of the finished file are nested exactly eight deep, or
six without tracks; `SimpleReader` reads it, its calls are nested as deep, and it copies at most eight times the bytes of the file. -/
theorem C93_simple (os : OStream) (hos : os.data = []) (f : Ftyp) (ts : BitVec 32) (dur now : BitVec 64) (calls : List Call)
    (hf : f.compatible_brands.length < 2 ^ 32) :
    ∃ s es, SimpleWriter.session os f ts dur now calls = .ok s ∧ Spec.Expands [] calls es ∧
      (Tree.totalList (Spec.simpleFile f (Spec.mdat es) (SimpleWriter.moovOf s)) < 2 ^ 63 →
       (∀ i, (Spec.samplesOf i es).length < 2 ^ 32) → (∀ a ∈ Spec.asked calls, Spec.CodecFits a) →
       ∃ w, SimpleWriter.finish s = .ok w ∧ ∀ (file : Bool) (env : Nat → Env),
        Spec.CheapToRead { file, env, data := w.os.data } (if Spec.afterAll [] calls = [] then 6 else 8)) := by
  obtain ⟨w1, s, es, hw1, hinv, hs, hses, he1, he2, he3, hP, hmoov⟩ := simple_any os hos f ts dur now calls hf
  refine ⟨s, es, hses, he1, ?_⟩
  intro hfit hn hc
  rw [hmoov, simpleFile_total] at hfit
  obtain ⟨w, hw, hfile⟩ := SimpleWriter.finish_eq hP (by omega)
  refine ⟨w, hw, ?_⟩
  intro file env
  let M := newMvhd now ts dur s.writer.next_track_id
  have hfile2 : w.os.data = Tree.encodeList (Spec.simpleFile f (Spec.mdat es) (moovTree M (s.tracks.map (·.finalize)))) := by
    rw [← headBoxes_simpleFile]
    exact hfile
  have hsm : ∀ t ∈ s.tracks.map (·.finalize), t.Small := by
    intro t ht
    obtain ⟨u, hu, rfl⟩ := List.mem_map.mp ht
    exact tracks_small hs he2 hn hc u hu
  have hmf : (moovTree M (s.tracks.map (·.finalize))).Fit := moov_fit M _ hsm
  have hmt : (moovTree M (s.tracks.map (·.finalize))).total =
      (moovTree (newMvhd now ts dur 1) (s.tracks.map (·.finalize))).total := rfl
  have hmh := moov_height_calls M s.tracks (·.finalize) _ he3.1
  have hfl : FitList (Spec.simpleFile f (Spec.mdat es) (moovTree M (s.tracks.map (·.finalize)))) := by
    unfold Spec.simpleFile
    by_cases hL : (Spec.mdat es).length + 8 < 2 ^ 32
    · rw [if_pos hL]
      exact ⟨ftyp_fit f, free_fit _, mdat_fit _, hmf, trivial⟩
    · rw [if_neg hL]
      exact ⟨ftyp_fit f, mdat_fit _, hmf, trivial⟩
  have := cheap_to_read { file, env, data := w.os.data } rfl _ hfile2 (by rw [simpleFile_total, hmt]; omega) hfl
  rw [simpleFile_height _ _ _ (by rw [hmh]; split <;> omega), hmh] at this
  exact this

/-- **C93** The same for `FaststartWriter`. -/
theorem C93_faststart (os : OStream) (hos : os.data = []) (f : Ftyp) (ts : BitVec 32) (dur now : BitVec 64) (calls : List Call)
    (hf : f.compatible_brands.length < 2 ^ 32) :
    ∃ s es, FaststartWriter.session os f ts dur now calls = .ok s ∧ Spec.Expands [] calls es ∧
      (FaststartWriter.sizeBound s f (Spec.mdat es) < 2 ^ 63 →
       (∀ i, (Spec.samplesOf i es).length < 2 ^ 32) → (∀ a ∈ Spec.asked calls, Spec.CodecFits a) →
       ∃ w, FaststartWriter.finish s = .ok w ∧ ∀ (file : Bool) (env : Nat → Env),
        Spec.CheapToRead { file, env, data := w.os.data } (if Spec.afterAll [] calls = [] then 6 else 8)) := by
  obtain ⟨w1, s, es, hw1, hinv, hs, hses, he1, he2, he3, hP⟩ := faststart_any os hos f ts dur now calls hf
  refine ⟨s, es, hses, he1, ?_⟩
  intro hfit hn hc
  obtain ⟨-, c1, c2, c3, c4⟩ := faststart_fit hinv he2 hfit
  obtain ⟨w, S, hw, hfile, hS, hS2⟩ := FaststartWriter.finish_eq hP c1 c2 c3 c4
  refine ⟨w, hw, ?_⟩
  intro file env
  have hmax := moovSize_max (m := s.writer.mvhd) c1 hS2 c4
  unfold FaststartWriter.sizeBound at hfit
  rw [faststartFile_total, moovAt_eq] at hfit
  have hlist : (FaststartWriter.finals s.tracks).map (·.shift S) = s.tracks.map fun t => t.finalize.shift S := by
    rw [FaststartWriter.finals, List.map_map]; rfl
  have hsm : ∀ t ∈ (FaststartWriter.finals s.tracks).map (·.shift S), t.Small := by
    rw [hlist]
    intro t ht
    obtain ⟨u, hu, rfl⟩ := List.mem_map.mp ht
    exact (tracks_small hs he2 hn hc u hu).shift S
  have hmf := moov_fit s.writer.mvhd _ hsm
  have hmh := moov_height_calls s.writer.mvhd s.tracks (fun t => t.finalize.shift S) _ he3.1
  rw [← hlist] at hmh
  have htot : Tree.totalList (Spec.faststartFile f (Spec.mdat es)
      (moovTree s.writer.mvhd ((FaststartWriter.finals s.tracks).map (·.shift S)))) < 2 ^ 63 := by
    rw [faststartFile_total]
    unfold moovSize at hmax
    omega
  have := cheap_to_read { file, env, data := w.os.data } rfl _ hfile htot ⟨ftyp_fit f, hmf, mdat_fit _, trivial⟩
  rw [faststartFile_height _ _ _ (by rw [hmh]; split <;> omega), hmh] at this
  exact this

end Mp4
