import Verif.Spec.SameMovie
import Verif.Lemmas.Away
import Verif.Props.Writer
import Verif.Props.Faststart

/-! # C90: the choice of writer changes only positions -/

namespace Mp4

open Spec (without withoutList withoutOffsets)

theorem withoutList_append (hide : BoxData → Bool) (a b : List Tree) :
    withoutList hide (a ++ b) = withoutList hide a ++ withoutList hide b := by
  induction a with
  | nil => rfl
  | cons t a ih => simp only [List.cons_append, withoutList, ih]

theorem without_mkInfo (hide : BoxData → Bool) (ty : BoxType) (d : BoxData) (cs : List Mk) (p : List BoxType) (h : hide d = false) :
    without hide (mkInfo ty d cs p) = .node { type := ty, data := d } (p ++ [ty]) (withoutList hide (cs.map (· (p ++ [ty])))) := by
  unfold mkInfo without
  rw [h]
  rfl

theorem without_hidden (hide : BoxData → Bool) (ty : BoxType) (d : BoxData) (cs : List Mk) (p : List BoxType) (h : hide d = true) :
    without hide (mkInfo ty d cs p) = .node { type := fourcc "stco", data := .empty } [] [] := by
  unfold mkInfo without
  rw [if_pos h]

theorem stsc_shift (S : Nat) (cs : List ChunkInfo) : ∀ (k : Int) (n : BitVec 32),
    stscGo k n (cs.map fun c => { c with offset := c.offset + BitVec.ofNat 64 S }) = stscGo k n cs := by
  induction cs with
  | nil => intro k n; rfl
  | cons c cs ih => intro k n; simp only [List.map_cons, stscGo, ih]

theorem holds_offset_box (cs : List ChunkInfo) : Spec.holdsOffsets (make_offset_box cs).data = true := by
  have two : ∀ (c : Prop) [Decidable c] (a b : Box), Spec.holdsOffsets a.data = true → Spec.holdsOffsets b.data = true →
      Spec.holdsOffsets (if c then a else b).data = true := by
    intro c _ a b ha hb
    split
    · exact ha
    · exact hb
  unfold make_offset_box
  exact two _ _ _ rfl rfl

/-- The tables below `stbl` of two tracks that have all but their chunks in common, when nothing of the rest is seen. -/
theorem without_stbl (hide : BoxData → Bool) (ho : ∀ d, Spec.holdsOffsets d = true → hide d = true) (t : Track) (cs : List ChunkInfo)
    (c : ChunkInfo) (p : List BoxType)
    (hs : without hide (({ t with chunk_infos := cs, current_chunk_info := c } : Track).stsc p) = without hide (t.stsc p)) :
    withoutList hide (({ t with chunk_infos := cs, current_chunk_info := c } : Track).stblChildren.map (· p)) =
      withoutList hide (t.stblChildren.map (· p)) := by
  have h2 : without hide (({ t with chunk_infos := cs, current_chunk_info := c } : Track).offsets p) = without hide (t.offsets p) := by
    unfold Track.offsets
    rw [without_hidden hide _ _ _ _ (ho _ (holds_offset_box _)), without_hidden hide _ _ _ _ (ho _ (holds_offset_box _))]
  obtain ⟨timescale, d1, d2, d3, media, id, fin, sizes, infos, cur, prev, durs, keys, codec⟩ := t
  unfold Track.stblChildren
  cases codec <;> dsimp only at hs h2 ⊢ <;>
    simp only [List.map_cons, List.map_nil, List.cons_append, List.nil_append, withoutList, h2, hs] <;> rfl

theorem without_trak (hide : BoxData → Bool) (ho : ∀ d, Spec.holdsOffsets d = true → hide d = true) (he : hide .empty = false)
    (t : Track) (cs : List ChunkInfo) (c : ChunkInfo) (p : List BoxType)
    (hs : ∀ p, without hide (({ t with chunk_infos := cs, current_chunk_info := c } : Track).stsc p) = without hide (t.stsc p)) :
    without hide (({ t with chunk_infos := cs, current_chunk_info := c } : Track).trak p) = without hide (t.trak p) := by
  unfold Track.trak
  simp only [without_mkInfo hide _ .empty _ _ he, List.map_cons, List.map_nil, withoutList,
    without_stbl hide ho t cs c _ (hs _)]
  rfl

theorem withoutOffsets_trak (t : Track) (S : Nat) (p : List BoxType) :
    withoutOffsets ((t.shift S).trak p) = withoutOffsets (t.trak p) := by
  refine without_trak Spec.holdsOffsets (fun _ h => h) rfl t _ t.current_chunk_info p ?_
  intro q
  unfold Track.stsc make_stsc_entries
  dsimp only
  rw [stsc_shift]

theorem without_moov (hide : BoxData → Bool) (m : Mvhd) (ts us : List Track)
    (h : ts.map (fun t => without hide (t.trak [fourcc "moov"])) = us.map (fun t => without hide (t.trak [fourcc "moov"]))) :
    without hide (moovTree m ts) = without hide (moovTree m us) := by
  have hl : ∀ l : List Track, withoutList hide (l.map (·.trak [fourcc "moov"])) =
      l.map (fun t => without hide (t.trak [fourcc "moov"])) := by
    intro l
    induction l with
    | nil => rfl
    | cons t l ih => simp only [List.map_cons, withoutList, ih]
  unfold moovTree without
  simp only [withoutList, withoutList_append, hl, h]

/-- Chunk offsets in the box of a track moved to `S`. -/
theorem shifted_offsets (t : Track) (N S : Nat) (p : List BoxType) (k1 : ∀ c ∈ t.chunk_infos, c.offset.toNat ≤ N)
    (k2 : t.chunk_infos.Pairwise fun a b => a.offset.toNat ≤ b.offset.toNat) (h : N + S < 2 ^ 64) :
    Spec.trakOffsets ((t.shift S).trak p) = some (t.chunk_infos.map fun c => c.offset.toNat + S) := by
  rw [trakOffsets_trak]
  have hval : ∀ c ∈ t.chunk_infos, (c.offset + BitVec.ofNat 64 S).toNat = c.offset.toNat + S := by
    intro c hc
    have := k1 c hc
    rw [BitVec.toNat_add, BitVec.toNat_ofNat]
    omega
  have hsort : (t.shift S).chunk_infos.Pairwise fun a b => a.offset.toNat ≤ b.offset.toNat := by
    unfold Track.shift
    dsimp only
    rw [List.pairwise_map]
    refine List.Pairwise.imp_of_mem ?_ k2
    intro a b ha hb hab
    dsimp only
    rw [hval a ha, hval b hb]
    omega
  rw [(C34_offsets _ hsort).1]
  congr 1
  unfold Track.shift
  dsimp only
  rw [List.map_map]
  apply List.map_congr_left
  intro c hc
  simp only [Function.comp_apply]
  rw [hval c hc]

/-- The same calls with both writers, up to the end. -/
theorem same_session (os os' : OStream) (hos : os.data = []) (hos' : os'.data = []) (f : Ftyp) (ts : BitVec 32) (dur now : BitVec 64)
    (calls : List Call) (hf : f.compatible_brands.length < 2 ^ 32) :
    ∃ sS sF es esS w1, SimpleWriter.session os f ts dur now calls = .ok sS ∧ FaststartWriter.session os' f ts dur now calls = .ok sF ∧
      Spec.mdat esS = Spec.mdat es ∧ Spec.Expands [] calls es ∧ FaststartWriter.Inv f ts dur now w1 [] ∧
      Session.Reached idStep w1 sF es ∧
      SimpleWriter.Inv f (newMvhd now ts dur 1) sS.writer (Spec.mdat es) ∧ FaststartWriter.Inv f ts dur now sF.writer (Spec.mdat es) ∧
      sS.tracks = sF.tracks.map (·.away ((ftypTree f).total + 16)) ∧ sF.writer.next_track_id = sS.writer.next_track_id ∧
      SimpleWriter.moovOf sS = moovTree (newMvhd now ts dur 1) (sS.tracks.map (·.finalize)) := by
  obtain ⟨a1, sS, esS, ha1, hinvS, hsS, hsesS, -, -, -, hPS, hmoov⟩ := simple_any os hos f ts dur now calls hf
  obtain ⟨b1, sF, esF, hb1, hinvF, hsF, hsesF, he1, he2, -, hPF⟩ := faststart_any os' hos' f ts dur now calls hf
  have hida : a1.next_track_id = 1 := by
    unfold SimpleWriter.writeFtypBox at ha1
    split at ha1
    · cases ha1
    · cases ha1; rfl
  have hidb : b1.next_track_id = 1 := by
    unfold FaststartWriter.writeFtypBox at hb1
    split at hb1
    · cases hb1
    · cases hb1; rfl
  have hW0 : FaststartSimple (OStream.mk (ftypTree f).encode ((ftypTree f).total + 16)) b1 a1 := by
    refine ⟨?_, ?_, by rw [hida, hidb]⟩
    · rw [hinvF.2.1, hinvF.2.2.1]
    · rw [hinvF.2.1, hinvS.1]
  obtain ⟨ht, hW⟩ := Session.away_calls (faststartSimple_ahead (OStream.mk (ftypTree f).encode ((ftypTree f).total + 16)))
    calls ⟨[], b1⟩ ⟨[], a1⟩ rfl hW0
  rw [← hsS, ← hsF] at ht hW
  have hL : Spec.mdat esS = Spec.mdat esF := by
    apply OStream.write_cancel (OStream.mk (ftypTree f).encode ((ftypTree f).total + 16))
    rw [← hPS.1, hW.2.1, hPF.2.1]
  rw [hL] at hPS
  exact ⟨sS, sF, esF, esS, b1, hsesS, hsesF, hL, he1, hinvF, he2, hPS, hPF, ht, hW.2.2, hmoov⟩

/-- **C90.** The choice of writer changes only positions.  For every program: whether its calls are made with a `SimpleWriter` or with
a `FaststartWriter`, the two finished files have the same `ftyp`, the same bytes in `mdat`, and `moov` boxes that differ in
nothing but the chunk offsets; and the chunk offsets of both are the same numbers, counted from where the bytes of `mdat`
start in each file. -/
theorem C90_same_movie (os os' : OStream) (hos : os.data = []) (hos' : os'.data = []) (f : Ftyp) (ts : BitVec 32) (dur now : BitVec 64)
    (calls : List Call) (hf : f.compatible_brands.length < 2 ^ 32) :
    ∃ sS sF es samples, SimpleWriter.session os f ts dur now calls = .ok sS ∧
      FaststartWriter.session os' f ts dur now calls = .ok sF ∧ Spec.Expands [] calls es ∧ samples = Spec.mdat es ∧
      (FaststartWriter.sizeBound sF f samples < 2 ^ 63 →
       ∃ wS wF moovS moovF, SimpleWriter.finish sS = .ok wS ∧ FaststartWriter.finish sF = .ok wF ∧
        wS.os.data = Tree.encodeList (Spec.simpleFile f samples moovS) ∧
        wF.os.data = Tree.encodeList (Spec.faststartFile f samples moovF) ∧
        withoutOffsets moovS = withoutOffsets moovF ∧
        ∃ (beforeS beforeF behind : List Byte) (chunks : List (List Nat)),
          wS.os.data = beforeS ++ samples ++ behind ∧ wF.os.data = beforeF ++ samples ∧
          (∀ c ∈ chunks, ∀ n ∈ c, n ≤ samples.length) ∧
          (Spec.traks moovS).map Spec.trakOffsets = chunks.map (fun c => some (c.map (beforeS.length + ·))) ∧
          (Spec.traks moovF).map Spec.trakOffsets = chunks.map (fun c => some (c.map (beforeF.length + ·)))) := by
  obtain ⟨sS, sF, es, esS, w1, hsesS, hsesF, hL, he1, hinvF, he2, hPS, hPF, ht, hid, hmoov⟩ :=
    same_session os os' hos hos' f ts dur now calls hf
  refine ⟨sS, sF, es, Spec.mdat es, hsesS, hsesF, he1, rfl, ?_⟩
  intro hfit
  obtain ⟨c0, c1, c2, c3, c4⟩ := faststart_fit hinvF he2 hfit
  obtain ⟨wF, S, hwF, hfileF, hS, hS2⟩ := FaststartWriter.finish_eq hPF c1 c2 c3 c4
  unfold FaststartWriter.sizeBound at hfit
  rw [faststartFile_total, moovAt_eq] at hfit
  have hfit' : (ftypTree f).total + moovSize sF.writer.mvhd (FaststartWriter.finals sF.tracks) (2 ^ 32) +
      ((Spec.mdat es).length + Spec.headerSize (Spec.mdat es).length) < 2 ^ 63 := hfit
  -- the tracks of the `SimpleWriter` are those of the `FaststartWriter`, moved
  have htr : ∀ m, moovTree m (sS.tracks.map (·.finalize)) =
      moovTree m ((FaststartWriter.finals sF.tracks).map (·.shift ((ftypTree f).total + 16))) := by
    intro m
    rw [ht]
    unfold moovTree FaststartWriter.finals
    simp only [List.map_map]
    congr 3
    apply List.map_congr_left
    intro t _
    simp only [Function.comp_apply]
    obtain ⟨c, hc⟩ := Track.away_finalize ((ftypTree f).total + 16) t
    rw [hc]
    rfl
  have hmv : ({ newMvhd now ts dur 1 with next_track_id := sS.writer.next_track_id } : Mvhd) = sF.writer.mvhd := by
    obtain ⟨-, -, -, -, -, -, g1, g2, g3⟩ := hPF
    unfold FaststartWriter.mvhd newMvhd
    rw [g1, g2, g3, hid]
  have hle : moovSize sF.writer.mvhd (FaststartWriter.finals sF.tracks) ((ftypTree f).total + 16) ≤
      moovSize sF.writer.mvhd (FaststartWriter.finals sF.tracks) (2 ^ 32) :=
    moovSize_max c1 (by omega) c4
  have hlt : (ftypTree f).total + 16 + (Spec.mdat es).length + (moovTree (newMvhd now ts dur 1) (sS.tracks.map (·.finalize))).total <
      2 ^ 64 := by
    have e1 : (moovTree (newMvhd now ts dur 1) (sS.tracks.map (·.finalize))).total =
        moovSize sF.writer.mvhd (FaststartWriter.finals sF.tracks) ((ftypTree f).total + 16) := by
      rw [htr]
      rfl
    rw [e1]
    have := ftyp_small f hf
    omega
  obtain ⟨wS, hwS, hfileS⟩ := SimpleWriter.finish_eq hPS hlt
  rw [hmv, htr] at hfileS
  refine ⟨wS, wF, _, _, hwS, hwF, by rw [hfileS, headBoxes_simpleFile], hfileF, ?_, ?_⟩
  · apply without_moov
    rw [List.map_map, List.map_map]
    apply List.map_congr_left
    intro t _
    simp only [Function.comp_apply, withoutOffsets_trak]
  · obtain ⟨H, hH, hhead⟩ := SimpleWriter.headBoxes_eq f (Spec.mdat es)
    have hE := good_encode_length (ftypTree_good f)
    have hME := good_encode_length (moovTree_good sF.writer.mvhd ((FaststartWriter.finals sF.tracks).map (·.shift S)))
    refine ⟨(ftypTree f).encode ++ H, (ftypTree f).encode ++
      (moovTree sF.writer.mvhd ((FaststartWriter.finals sF.tracks).map (·.shift S))).encode ++ mdatHeader (Spec.mdat es),
      Tree.encodeList [moovTree sF.writer.mvhd ((FaststartWriter.finals sF.tracks).map (·.shift ((ftypTree f).total + 16)))],
      (FaststartWriter.finals sF.tracks).map fun t => t.chunk_infos.map (·.offset.toNat), ?_, ?_, ?_, ?_, ?_⟩
    · rw [hfileS, SimpleWriter.encodeList_append, hhead]
    · rw [hfileF]
      have hm := mdat_encode (Spec.mdat es) [fourcc "mdat"]
      simp only [Spec.faststartFile, Tree.encodeList, Spec.leaf, hm, ftypTree, List.append_nil, List.append_assoc]
    · intro c hc n hn
      obtain ⟨t, htm, rfl⟩ := List.mem_map.mp hc
      obtain ⟨x, hx, rfl⟩ := List.mem_map.mp hn
      exact c1 t htm x hx
    · rw [traks_moovTree, List.map_map, List.map_map, List.map_map]
      apply List.map_congr_left
      intro t htm
      obtain ⟨u, hu, rfl⟩ := List.mem_map.mp htm
      obtain ⟨k1, k2⟩ := (c0 u hu).finalize
      simp only [Function.comp_apply]
      rw [shifted_offsets _ _ _ _ k1 k2 (by omega), List.map_map, List.length_append, hE, hH]
      congr 1
      apply List.map_congr_left
      intro c _
      simp only [Function.comp_apply, Nat.add_comm]
    · rw [traks_moovTree, List.map_map, List.map_map, List.map_map]
      apply List.map_congr_left
      intro t htm
      obtain ⟨u, hu, rfl⟩ := List.mem_map.mp htm
      obtain ⟨k1, k2⟩ := (c0 u hu).finalize
      simp only [Function.comp_apply]
      rw [shifted_offsets _ _ _ _ k1 k2 (by omega), List.map_map]
      have hpre : ((ftypTree f).encode ++ (moovTree sF.writer.mvhd ((FaststartWriter.finals sF.tracks).map (·.shift S))).encode ++
          mdatHeader (Spec.mdat es)).length = S := by
        rw [List.length_append, List.length_append, hE, hME, mdatHeader_length]
        exact hS.symm
      rw [hpre]
      congr 1
      apply List.map_congr_left
      intro c _
      simp only [Function.comp_apply, Nat.add_comm]

end Mp4
