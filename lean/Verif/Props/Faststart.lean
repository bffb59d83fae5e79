import Verif.Lemmas.Faststart
import Verif.Lemmas.Offsets
import Verif.Props.Ids

/-! # C39, C41, C42, C43: writing a file with FaststartWriter -/

namespace Mp4

/-- A program that writes a file with `FaststartWriter`, up to the last call on its tracks. -/
def FaststartWriter.session (os : OStream) (f : Ftyp) (ts : BitVec 32) (dur now : BitVec 64) (calls : List Call) :
    Except Err (Session FaststartWriter) :=
  match (FaststartWriter.new os f ts dur now).writeFtypBox with
  | .error e => .error e
  | .ok w => .ok ((Session.mk [] w).calls calls)

/-- The `moov` tree of a program when its sample data starts at byte `S` of the file. -/
def FaststartWriter.moovAt (s : Session FaststartWriter) (S : Nat) : Tree :=
  appendUdtaBoxInfo (FaststartWriter.shiftAndAppend S s.tracks (newMoov s.writer.mvhd)).2

/-- An upper bound of the size of the file: the size it has with 64-bit chunk offsets in all tracks. -/
def FaststartWriter.sizeBound (s : Session FaststartWriter) (f : Ftyp) (samples : List Byte) : Nat :=
  Tree.totalList (Spec.faststartFile f samples (FaststartWriter.moovAt s (2 ^ 32)))

theorem moovAt_eq (s : Session FaststartWriter) (S : Nat) :
    FaststartWriter.moovAt s S = moovTree s.writer.mvhd ((FaststartWriter.finals s.tracks).map (·.shift S)) := by
  have : newMoov s.writer.mvhd = .node { type := fourcc "moov", data := .empty } [fourcc "moov"]
    [.node { type := fourcc "mvhd", data := .mvhd s.writer.mvhd } [fourcc "moov", fourcc "mvhd"] []] := rfl
  unfold FaststartWriter.moovAt
  rw [this, FaststartWriter.shiftAndAppend_eq]
  unfold moovTree appendUdtaBoxInfo FaststartWriter.finals
  simp only [List.map_map, List.cons_append, List.nil_append]
  rfl

theorem faststartFile_total (f : Ftyp) (L : List Byte) (moov : Tree) :
    Tree.totalList (Spec.faststartFile f L moov) = (ftypTree f).total + moov.total + (L.length + Spec.headerSize L.length) := by
  unfold Spec.faststartFile
  have hm : (Spec.leaf "mdat" (.opaq ⟨L⟩)).total = L.length + Spec.headerSize L.length := rfl
  rw [Tree.totalList_cons, Tree.totalList_cons, Tree.totalList_cons, hm, show Tree.totalList [] = 0 from rfl,
    show (Spec.leaf "ftyp" (.ftyp f)).total = (ftypTree f).total from rfl]
  omega

/-- What holds for every program that uses `FaststartWriter`. -/
theorem faststart_any (os : OStream) (hos : os.data = []) (f : Ftyp) (ts : BitVec 32) (dur now : BitVec 64) (calls : List Call)
    (hf : f.compatible_brands.length < 2 ^ 32) :
    ∃ w1 s es, (FaststartWriter.new os f ts dur now).writeFtypBox = .ok w1 ∧ FaststartWriter.Inv f ts dur now w1 [] ∧
      s = (Session.mk [] w1).calls calls ∧
      FaststartWriter.session os f ts dur now calls = .ok s ∧ Spec.Expands [] calls es ∧ Session.Reached idStep w1 s es ∧
      ClassesOf s.tracks (Spec.afterAll [] calls) ∧ FaststartWriter.Inv f ts dur now s.writer (Spec.mdat es) := by
  have hft := ftyp_small f hf
  obtain ⟨w1, hw1, hinv⟩ := FaststartWriter.Inv.init os hos f ts dur now (by omega)
  obtain ⟨es, he1, he2, he3⟩ := Session.calls_reached w1 calls ⟨[], w1⟩ [] [] .start ⟨rfl, by simp⟩
  rw [List.nil_append] at he2
  have hP := Reached.writer_inv idStep (FaststartWriter.Inv f ts dur now) FaststartWriter.Inv.add FaststartWriter.Inv.step he2 hinv
  rw [List.nil_append] at hP
  refine ⟨w1, _, es, hw1, hinv, rfl, ?_, he1, he2, he3, hP⟩
  unfold FaststartWriter.session; rw [hw1]

/-- The conditions of the lemmas on the loop. -/
theorem faststart_fit {f : Ftyp} {ts : BitVec 32} {dur now : BitVec 64} {w1 : FaststartWriter} {s : Session FaststartWriter}
    {es : List Event} (hinv : FaststartWriter.Inv f ts dur now w1 []) (hr : Session.Reached idStep w1 s es)
    (hfit : FaststartWriter.sizeBound s f (Spec.mdat es) < 2 ^ 63) :
    (∀ t ∈ s.tracks, OffsInv (Spec.mdat es).length t) ∧
    (∀ t ∈ FaststartWriter.finals s.tracks, OffsetsBelow (Spec.mdat es).length t) ∧ (ftypTree f).total < 2 ^ 63 ∧
    (ftypTree f).total + moovSize s.writer.mvhd (FaststartWriter.finals s.tracks) (2 ^ 32) +
      ((Spec.mdat es).length + Spec.headerSize (Spec.mdat es).length) < 2 ^ 64 ∧ (Spec.mdat es).length + 2 ^ 32 < 2 ^ 64 := by
  unfold FaststartWriter.sizeBound at hfit
  rw [faststartFile_total, moovAt_eq] at hfit
  have hoff := Reached.offsets idStep (FaststartWriter.Inv f ts dur now) 0 FaststartWriter.Inv.tell FaststartWriter.Inv.add
    FaststartWriter.Inv.step hr hinv (by omega)
  rw [Nat.zero_add] at hoff
  refine ⟨hoff, ?_, by omega, by unfold moovSize; omega, by omega⟩
  intro t ht
  obtain ⟨u, hu, rfl⟩ := List.mem_map.mp ht
  exact ((hoff u hu).finalize).1

/-- Chunks moved from the intermediate file to their place. -/
theorem chunkInfo_shift (S : Nat) (G : List (Nat × List Sample)) :
    (G.map (chunkInfo 0)).map (fun c => { c with offset := c.offset + BitVec.ofNat 64 S }) = G.map (chunkInfo S) := by
  rw [List.map_map]
  apply List.map_congr_left
  intro g _
  simp only [Function.comp_apply, chunkInfo, Nat.zero_add]
  rw [← BitVec.ofNat_add, Nat.add_comm]

/-- The samples are where the tables of `moov` say. -/
theorem faststart_samples {f : Ftyp} {ts : BitVec 32} {dur now : BitVec 64} {calls : List Call} {w1 w : FaststartWriter}
    {s : Session FaststartWriter} {es : List Event} (M : Mvhd) (S : Nat) (hinv : FaststartWriter.Inv f ts dur now w1 [])
    (he1 : Spec.Expands [] calls es) (he2 : Session.Reached idStep w1 s es) (he3 : ClassesOf s.tracks (Spec.afterAll [] calls))
    (hd : Spec.DisciplinedCalls calls) (hn : ∀ i, (Spec.samplesOf i es).length < 2 ^ 32 - 1)
    (hsz : ∀ i, ∀ x ∈ Spec.samplesOf i es, x.data.length < 2 ^ 32)
    (hS : (ftypTree f).total + (moovTree M ((FaststartWriter.finals s.tracks).map (·.shift S))).total +
      Spec.headerSize (Spec.mdat es).length = S) (hS2 : S + (Spec.mdat es).length < 2 ^ 64)
    (hfile : w.os.data = Tree.encodeList (Spec.faststartFile f (Spec.mdat es)
      (moovTree M ((FaststartWriter.finals s.tracks).map (·.shift S))))) :
    (Spec.traks (moovTree M ((FaststartWriter.finals s.tracks).map (·.shift S)))).map (Spec.trakSamples w.os.data) =
      (List.range (Spec.afterAll [] calls).length).map fun i => some ((Spec.samplesOf i es).map (·.data)) := by
  obtain ⟨-, -, hT⟩ := Reached.inv idStep (FaststartWriter.Inv f ts dur now) 0
    FaststartWriter.Inv.tell FaststartWriter.Inv.add FaststartWriter.Inv.step he2 hinv (hd.events he1)
    (fun i => by have := hn i; omega)
  rw [traks_moovTree, FaststartWriter.finals, List.map_map, List.map_map, List.map_map]
  have hE := good_encode_length (ftypTree_good f)
  have hME := good_encode_length (moovTree_good M ((FaststartWriter.finals s.tracks).map (·.shift S)))
  have hfile' : w.os.data = ((ftypTree f).encode ++ (moovTree M ((FaststartWriter.finals s.tracks).map (·.shift S))).encode ++
      mdatHeader (Spec.mdat es)) ++ Spec.mdat es := by
    rw [hfile]
    have hm := mdat_encode (Spec.mdat es) [fourcc "mdat"]
    simp only [Spec.faststartFile, Tree.encodeList, Spec.leaf, hm, ftypTree, List.append_nil, List.append_assoc]
  have hpre : ((ftypTree f).encode ++ (moovTree M ((FaststartWriter.finals s.tracks).map (·.shift S))).encode ++
      mdatHeader (Spec.mdat es)).length = S := by
    rw [List.length_append, List.length_append, hE, hME, mdatHeader_length]
    omega
  have hslice : slice w.os.data S (Spec.mdat es).length = Spec.mdat es := by
    rw [hfile', slice, List.drop_left' hpre, List.take_of_length_le (Nat.le_refl _)]
  have hlen : S + (Spec.mdat es).length ≤ w.os.data.length := by
    rw [hfile', List.length_append, hpre]
    exact Nat.le_refl _
  rw [← he3.1]
  apply List.ext_getElem
  · simp
  · intro i h1 h2
    simp only [List.getElem_map, Function.comp_apply, List.getElem_range]
    have hi : i < s.tracks.length := by simpa using h1
    obtain ⟨G, g1, g2, g3, g4, g5, g6, -⟩ := (hT i s.tracks[i] (List.getElem?_eq_getElem hi)).finalize (by have := hn i; omega)
    refine trak_reads w.os.data (Spec.mdat es) S (Spec.samplesOf i es) _ G _ ?_ g2 g3 g4 g5 g6 (hn i) (hsz i) hslice hlen (by omega)
    show (s.tracks[i].finalize.chunk_infos).map _ = _
    rw [g1]
    exact chunkInfo_shift S G

/-- **C39.** For every program that keeps to the rule for callers: following `stsc`, `stsz` and `stco`/`co64` of the tracks in the
finished file gives, for every track, exactly the bytes of its samples in the order they were added. (Below 2^32 - 1
samples per track and 2^32 bytes per sample, and a file below 2^63 bytes.) -/
theorem C39_samples_found (os : OStream) (hos : os.data = []) (f : Ftyp) (ts : BitVec 32) (dur now : BitVec 64) (calls : List Call)
    (hd : Spec.DisciplinedCalls calls) (hf : f.compatible_brands.length < 2 ^ 32) :
    ∃ s es, FaststartWriter.session os f ts dur now calls = .ok s ∧ Spec.Expands [] calls es ∧
      (FaststartWriter.sizeBound s f (Spec.mdat es) < 2 ^ 63 →
       (∀ i, (Spec.samplesOf i es).length < 2 ^ 32 - 1) →
       (∀ i, ∀ x ∈ Spec.samplesOf i es, x.data.length < 2 ^ 32) →
       ∃ w moov, FaststartWriter.finish s = .ok w ∧
        w.os.data = Tree.encodeList (Spec.faststartFile f (Spec.mdat es) moov) ∧
        (Spec.traks moov).map (Spec.trakSamples w.os.data) =
          (List.range (Spec.afterAll [] calls).length).map fun i => some ((Spec.samplesOf i es).map (·.data))) := by
  obtain ⟨w1, s, es, hw1, hinv, -, hses, he1, he2, he3, hP⟩ := faststart_any os hos f ts dur now calls hf
  refine ⟨s, es, hses, he1, ?_⟩
  intro hfit hn hsz
  obtain ⟨-, c1, c2, c3, c4⟩ := faststart_fit hinv he2 hfit
  obtain ⟨w, S, hw, hfile, hS, hS2⟩ := FaststartWriter.finish_eq hP c1 c2 c3 c4
  refine ⟨w, _, hw, hfile, ?_⟩
  exact faststart_samples _ S hinv he1 he2 he3 hd hn hsz (by unfold moovSize at hS; omega) (by omega) hfile

/-- **C41.** For every program, in whatever order its tracks get data: the finished file consists of `ftyp`, `moov` and `mdat` with all
sample data in the order it was added, and of nothing else. -/
theorem C41_layout (os : OStream) (hos : os.data = []) (f : Ftyp) (ts : BitVec 32) (dur now : BitVec 64) (calls : List Call)
    (hf : f.compatible_brands.length < 2 ^ 32) :
    ∃ s es, FaststartWriter.session os f ts dur now calls = .ok s ∧ Spec.Expands [] calls es ∧
      (FaststartWriter.sizeBound s f (Spec.mdat es) < 2 ^ 63 →
       ∃ w moov, FaststartWriter.finish s = .ok w ∧
        w.os.data = Tree.encodeList (Spec.faststartFile f (Spec.mdat es) moov) ∧
        moov.box.type = fourcc "moov" ∧ (Spec.traks moov).length = (Spec.afterAll [] calls).length) := by
  obtain ⟨w1, s, es, hw1, hinv, -, hses, he1, he2, he3, hP⟩ := faststart_any os hos f ts dur now calls hf
  refine ⟨s, es, hses, he1, ?_⟩
  intro hfit
  obtain ⟨-, c1, c2, c3, c4⟩ := faststart_fit hinv he2 hfit
  obtain ⟨w, S, hw, hfile, hS, hS2⟩ := FaststartWriter.finish_eq hP c1 c2 c3 c4
  refine ⟨w, _, hw, hfile, rfl, ?_⟩
  rw [traks_moovTree, FaststartWriter.finals, List.length_map, List.length_map, List.length_map, he3.1]

/-- The offsets in `stco` or `co64` of a `trak` box. -/
def Spec.trakOffsets (trak : Tree) : Option (List Nat) := (Spec.stbl trak).bind Spec.stblOffsets

theorem trakOffsets_trak (t : Track) (p : List BoxType) :
    Spec.trakOffsets (t.trak p) = Spec.chunkOffsets (make_offset_box t.chunk_infos).data := by
  obtain ⟨q, hq⟩ := stbl_trak t p
  obtain ⟨h1, h2, h3⟩ := stbl_tables t q
  unfold Spec.trakOffsets
  rw [hq, Option.bind_some, h3]

/-- **C42.** For every program: the loop ends without an exception, and in the finished file every chunk offset is the offset recorded
in the intermediate file + the size of `ftyp` + the size of `moov` + the size of the header of `mdat`. -/
theorem C42_offsets (os : OStream) (hos : os.data = []) (f : Ftyp) (ts : BitVec 32) (dur now : BitVec 64) (calls : List Call)
    (hf : f.compatible_brands.length < 2 ^ 32) :
    ∃ s es, FaststartWriter.session os f ts dur now calls = .ok s ∧ Spec.Expands [] calls es ∧
      (FaststartWriter.sizeBound s f (Spec.mdat es) < 2 ^ 63 →
       ∃ w moov, FaststartWriter.finish s = .ok w ∧
        w.os.data = Tree.encodeList (Spec.faststartFile f (Spec.mdat es) moov) ∧
        (Spec.traks moov).map Spec.trakOffsets = s.tracks.map fun t =>
          some (t.finalize.chunk_infos.map fun c =>
            c.offset.toNat + ((Spec.leaf "ftyp" (.ftyp f)).total + moov.total + Spec.headerSize (Spec.mdat es).length))) := by
  obtain ⟨w1, s, es, hw1, hinv, -, hses, he1, he2, he3, hP⟩ := faststart_any os hos f ts dur now calls hf
  refine ⟨s, es, hses, he1, ?_⟩
  intro hfit
  obtain ⟨c0, c1, c2, c3, c4⟩ := faststart_fit hinv he2 hfit
  obtain ⟨w, S, hw, hfile, hS, hS2⟩ := FaststartWriter.finish_eq hP c1 c2 c3 c4
  refine ⟨w, _, hw, hfile, ?_⟩
  rw [traks_moovTree, List.map_map, FaststartWriter.finals, List.map_map, List.map_map]
  apply List.map_congr_left
  intro t ht
  simp only [Function.comp_apply]
  rw [trakOffsets_trak]
  obtain ⟨k1, k2⟩ := (c0 t ht).finalize
  have hval : ∀ c ∈ t.finalize.chunk_infos, (c.offset + BitVec.ofNat 64 S).toNat = c.offset.toNat + S := by
    intro c hc
    have := k1 c hc
    rw [BitVec.toNat_add, BitVec.toNat_ofNat]
    omega
  have hsort : (t.finalize.shift S).chunk_infos.Pairwise fun a b => a.offset.toNat ≤ b.offset.toNat := by
    unfold Track.shift
    dsimp only
    rw [List.pairwise_map]
    refine List.Pairwise.imp_of_mem ?_ k2
    intro a b ha hb hab
    dsimp only
    rw [hval a ha, hval b hb]
    omega
  rw [(C34_offsets _ hsort).1]
  congr 1
  unfold Track.shift
  dsimp only
  rw [List.map_map]
  apply List.map_congr_left
  intro c hc
  simp only [Function.comp_apply]
  rw [hval c hc]
  congr 1

/-- **C42** The loop: after any program, a run of at most (number of tracks + 2) rounds gives the result, and allowing more rounds does not
change it. -/
theorem C42_loop_ends (os : OStream) (hos : os.data = []) (f : Ftyp) (ts : BitVec 32) (dur now : BitVec 64) (calls : List Call)
    (hf : f.compatible_brands.length < 2 ^ 32) :
    ∃ s es, FaststartWriter.session os f ts dur now calls = .ok s ∧ Spec.Expands [] calls es ∧
      (FaststartWriter.sizeBound s f (Spec.mdat es) < 2 ^ 63 →
       ∃ r size, s.writer.headSize = .ok size ∧ s.writer.appendTrakAndUdtaBoxInfo s.tracks = .ok r ∧
        ∀ k, FaststartWriter.appendLoop (s.tracks.length + 2 + k) s.writer s.tracks 0 size = .ok r) := by
  obtain ⟨w1, s, es, hw1, hinv, -, hses, he1, he2, he3, hP⟩ := faststart_any os hos f ts dur now calls hf
  refine ⟨s, es, hses, he1, ?_⟩
  intro hfit
  obtain ⟨-, c1, c2, c3, c4⟩ := faststart_fit hinv he2 hfit
  obtain ⟨S, s1, -, -, s2⟩ := FaststartWriter.append_eq hP c1 c2 c3 c4
  refine ⟨_, (ftypTree f).total + Spec.headerSize (Spec.mdat es).length, ?_, s1, fun k => by rw [s2 k, s1]⟩
  have hH := hP.header (by omega)
  unfold FaststartWriter.headSize FaststartWriter.getMoovSize
  rw [hP.2.2.2.2.1, hP.2.2.2.2.2.1, hH]
  simp only [initialised, Nat.add_zero]
  unfold u64
  rw [Nat.mod_eq_of_lt (a := (ftypTree f).total) (by omega), Nat.mod_eq_of_lt (by omega)]

/-- **C43.** `copyMdatData` returns and writes exactly the content of the intermediate file at the stream's position, whatever its length
and wherever the position in the intermediate file is. -/
theorem C43_copy (w : FaststartWriter) : ∃ w', w.copyMdatData = .ok w' ∧ w'.os = w.os.write w.mdat.content :=
  FaststartWriter.copyMdatData_eq w

/-- **C43** The copy loop needs no more than one round per mebibyte and two more. -/
theorem C43_loop_ends (w : FaststartWriter) (k : Nat) :
    ∃ f', FaststartWriter.copyLoop (w.mdat.content.length / (1024 * 1024) + 2 + k) w.mdat.rewind w.os =
      .ok (f', w.os.write w.mdat.content) := by
  obtain ⟨f', h1, h2⟩ := FaststartWriter.copyLoop_eq (w.mdat.content.length / COPY_MDAT_DATA_BUFFER_SIZE + 1 + k) w.mdat.rewind w.os rfl
    (Nat.zero_le _) (by
      show w.mdat.content.length - 0 < _
      rw [Nat.add_mul, Nat.mul_comm]
      have := Nat.lt_mul_div_succ w.mdat.content.length (b := COPY_MDAT_DATA_BUFFER_SIZE) (by decide)
      omega)
  refine ⟨f', ?_⟩
  rw [show w.mdat.content.length / (1024 * 1024) + 2 + k = w.mdat.content.length / COPY_MDAT_DATA_BUFFER_SIZE + 1 + k + 1 by
    unfold COPY_MDAT_DATA_BUFFER_SIZE; omega]
  exact h1

/-- **C45** `next_track_ID` in the file of a `FaststartWriter`. -/
theorem C45_faststart_file (os : OStream) (hos : os.data = []) (f : Ftyp) (ts : BitVec 32) (dur now : BitVec 64) (calls : List Call)
    (hf : f.compatible_brands.length < 2 ^ 32) :
    ∃ w1 s es, (FaststartWriter.new os f ts dur now).writeFtypBox = .ok w1 ∧ w1.next_track_id = 1 ∧
      s = (Session.mk [] w1).calls calls ∧ Spec.Expands [] calls es ∧
      (FaststartWriter.sizeBound s f (Spec.mdat es) < 2 ^ 63 →
       ∃ w moov, FaststartWriter.finish s = .ok w ∧
        w.os.data = Tree.encodeList (Spec.faststartFile f (Spec.mdat es) moov) ∧
        Spec.nextTrackId moov = some s.writer.next_track_id) := by
  obtain ⟨w1, s, es, hw1, hinv, hs, hses, he1, he2, he3, hP⟩ := faststart_any os hos f ts dur now calls hf
  refine ⟨w1, s, es, hw1, ?_, hs, he1, ?_⟩
  · unfold FaststartWriter.writeFtypBox at hw1
    split at hw1
    · cases hw1
    · cases hw1; rfl
  intro hfit
  obtain ⟨-, c1, c2, c3, c4⟩ := faststart_fit hinv he2 hfit
  obtain ⟨w, S, hw, hfile, hS, hS2⟩ := FaststartWriter.finish_eq hP c1 c2 c3 c4
  exact ⟨w, _, hw, hfile, nextTrackId_moovTree _ _⟩

end Mp4
