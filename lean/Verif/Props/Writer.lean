import Verif.Lemmas.Simple

/-! # C38, C40, C44, C45: writing a file with SimpleWriter

`Session.calls` runs an arbitrary sequence of calls (creating tracks, adding data, terminating chunks, …), exceptions included, between
`writeFtypBox` and `appendTrakAndUdtaBoxInfo`. -/

namespace Mp4

/-- The size of a `SimpleWriter` file. -/
theorem simpleFile_total (f : Ftyp) (L : List Byte) (moov : Tree) :
    Tree.totalList (Spec.simpleFile f L moov) = (ftypTree f).total + 16 + L.length + moov.total := by
  unfold Spec.simpleFile
  have hm : (Spec.leaf "mdat" (.opaq ⟨L⟩)).total = L.length + Spec.headerSize L.length := rfl
  have hf : (Spec.leaf "free" (.opaq ⟨[]⟩)).total = 8 := rfl
  split <;> rename_i hc
  · have hs : Spec.headerSize L.length = 8 := by rw [Spec.headerSize, if_pos hc]
    rw [Tree.totalList_cons, Tree.totalList_cons, Tree.totalList_cons, Tree.totalList_cons, hm, hf, hs,
      show Tree.totalList [] = 0 from rfl, show (Spec.leaf "ftyp" (.ftyp f)).total = (ftypTree f).total from rfl]
    omega
  · have hs : Spec.headerSize L.length = 16 := by rw [Spec.headerSize, if_neg hc]
    rw [Tree.totalList_cons, Tree.totalList_cons, Tree.totalList_cons, hm, hs,
      show Tree.totalList [] = 0 from rfl, show (Spec.leaf "ftyp" (.ftyp f)).total = (ftypTree f).total from rfl]
    omega

theorem headBoxes_simpleFile (f : Ftyp) (L : List Byte) (moov : Tree) :
    SimpleWriter.headBoxes f L ++ [moov] = Spec.simpleFile f L moov := by
  unfold SimpleWriter.headBoxes Spec.simpleFile
  split <;> rfl

/-- A program that writes a file with `SimpleWriter`, up to the last call on its tracks: the new writer writes `ftyp`, then the calls
are made. -/
def SimpleWriter.session (os : OStream) (f : Ftyp) (ts : BitVec 32) (dur now : BitVec 64) (calls : List Call) :
    Except Err (Session SimpleWriter) :=
  match (SimpleWriter.new os f ts dur now).writeFtypBox with
  | .error e => .error e
  | .ok w => .ok ((Session.mk [] w).calls calls)

/-- The `moov` tree before offsets and sizes are filled in. -/
def SimpleWriter.moovOf (s : Session SimpleWriter) : Tree := (s.writer.appendTrakAndUdtaBoxInfo s.tracks).1.moov

theorem ftyp_small (f : Ftyp) (hf : f.compatible_brands.length < 2 ^ 32) : (ftypTree f).total + 16 < 2 ^ 63 := by
  have h1 : (ftypTree f).total = (8 + f.compatible_brands.length * 4) + Spec.headerSize (8 + f.compatible_brands.length * 4) := rfl
  have := Tree.headerSize_cases (8 + f.compatible_brands.length * 4)
  omega

/-- What holds for every program that uses `SimpleWriter`. -/
theorem simple_any (os : OStream) (hos : os.data = []) (f : Ftyp) (ts : BitVec 32) (dur now : BitVec 64) (calls : List Call)
    (hf : f.compatible_brands.length < 2 ^ 32) :
    ∃ w1 s es, (SimpleWriter.new os f ts dur now).writeFtypBox = .ok w1 ∧ SimpleWriter.Inv f (newMvhd now ts dur 1) w1 [] ∧
      s = (Session.mk [] w1).calls calls ∧
      SimpleWriter.session os f ts dur now calls = .ok s ∧ Spec.Expands [] calls es ∧ Session.Reached idStep w1 s es ∧
      ClassesOf s.tracks (Spec.afterAll [] calls) ∧
      SimpleWriter.Inv f (newMvhd now ts dur 1) s.writer (Spec.mdat es) ∧
      SimpleWriter.moovOf s = moovTree (newMvhd now ts dur 1) (s.tracks.map (·.finalize)) := by
  have hft := ftyp_small f hf
  obtain ⟨w1, hw1, hinv⟩ := SimpleWriter.Inv.init os hos f ts dur now (by omega)
  obtain ⟨es, he1, he2, he3⟩ := Session.calls_reached w1 calls ⟨[], w1⟩ [] [] .start ⟨rfl, by simp⟩
  rw [List.nil_append] at he2
  have hP := Reached.writer_inv idStep (SimpleWriter.Inv f (newMvhd now ts dur 1)) SimpleWriter.Inv.add SimpleWriter.Inv.step he2 hinv
  rw [List.nil_append] at hP
  refine ⟨w1, _, es, hw1, hinv, rfl, ?_, he1, he2, he3, hP, ?_⟩
  · unfold SimpleWriter.session; rw [hw1]
  · unfold SimpleWriter.moovOf SimpleWriter.appendTrakAndUdtaBoxInfo
    dsimp only
    rw [hP.2.2.2, append_newMoov]

/-- The samples are where the tables of `moov` say. -/
theorem simple_samples {f : Ftyp} {ts : BitVec 32} {dur now : BitVec 64} {calls : List Call} {w1 w : SimpleWriter}
    {s : Session SimpleWriter} {es : List Event} (M : Mvhd) (hinv : SimpleWriter.Inv f (newMvhd now ts dur 1) w1 [])
    (he1 : Spec.Expands [] calls es) (he2 : Session.Reached idStep w1 s es) (he3 : ClassesOf s.tracks (Spec.afterAll [] calls))
    (hd : Spec.DisciplinedCalls calls) (hn : ∀ i, (Spec.samplesOf i es).length < 2 ^ 32 - 1)
    (hsz : ∀ i, ∀ x ∈ Spec.samplesOf i es, x.data.length < 2 ^ 32)
    (hfit : (ftypTree f).total + 16 + (Spec.mdat es).length < 2 ^ 64)
    (hfile : w.os.data = Tree.encodeList (SimpleWriter.headBoxes f (Spec.mdat es) ++ [moovTree M (s.tracks.map (·.finalize))])) :
    (Spec.traks (moovTree M (s.tracks.map (·.finalize)))).map (Spec.trakSamples w.os.data) =
      (List.range (Spec.afterAll [] calls).length).map fun i => some ((Spec.samplesOf i es).map (·.data)) := by
  obtain ⟨-, -, hT⟩ := Reached.inv idStep (SimpleWriter.Inv f (newMvhd now ts dur 1)) ((ftypTree f).total + 16)
    SimpleWriter.Inv.tell SimpleWriter.Inv.add SimpleWriter.Inv.step he2 hinv (hd.events he1)
    (fun i => by have := hn i; omega)
  rw [traks_moovTree, List.map_map, List.map_map]
  obtain ⟨H, hH, hhead⟩ := SimpleWriter.headBoxes_eq f (Spec.mdat es)
  have hE := good_encode_length (ftypTree_good f)
  have hfile' : w.os.data = ((ftypTree f).encode ++ H) ++ (Spec.mdat es ++ (moovTree M (s.tracks.map (·.finalize))).encode) := by
    rw [hfile, SimpleWriter.encodeList_append, hhead, Tree.encodeList, Tree.encodeList]
    simp
  have hslice : slice w.os.data ((ftypTree f).total + 16) (Spec.mdat es).length = Spec.mdat es := by
    rw [hfile', slice, List.drop_left' (by simp [hE, hH]), List.take_left' rfl]
  have hlen : (ftypTree f).total + 16 + (Spec.mdat es).length ≤ w.os.data.length := by
    rw [hfile']; simp [hE, hH]; omega
  rw [← he3.1]
  apply List.ext_getElem
  · simp
  · intro i h1 h2
    simp only [List.getElem_map, Function.comp_apply, List.getElem_range]
    have hi : i < s.tracks.length := by simpa using h1
    obtain ⟨G, g1, g2, g3, g4, g5, g6, -⟩ := (hT i s.tracks[i] (List.getElem?_eq_getElem hi)).finalize (by have := hn i; omega)
    exact trak_reads w.os.data (Spec.mdat es) _ (Spec.samplesOf i es) _ G _ g1 g2 g3 g4 g5 g6 (hn i) (hsz i) hslice hlen (by omega)

/-- **C38.** For every program that keeps to the rule for callers (`Spec.DisciplinedCalls`): following `stsc`, `stsz` and
`stco`/`co64` of the tracks in the finished file gives, for every track, exactly the bytes of its samples in the order they
were added. (Below 2^32 - 1 samples per track and 2^32 bytes per sample, and a file below 2^64 bytes.) -/
theorem C38_samples_found (os : OStream) (hos : os.data = []) (f : Ftyp) (ts : BitVec 32) (dur now : BitVec 64) (calls : List Call)
    (hd : Spec.DisciplinedCalls calls) (hf : f.compatible_brands.length < 2 ^ 32) :
    ∃ s es, SimpleWriter.session os f ts dur now calls = .ok s ∧ Spec.Expands [] calls es ∧
      (Tree.totalList (Spec.simpleFile f (Spec.mdat es) (SimpleWriter.moovOf s)) < 2 ^ 64 →
       (∀ i, (Spec.samplesOf i es).length < 2 ^ 32 - 1) →
       (∀ i, ∀ x ∈ Spec.samplesOf i es, x.data.length < 2 ^ 32) →
       ∃ w moov, SimpleWriter.finish s = .ok w ∧
        w.os.data = Tree.encodeList (Spec.simpleFile f (Spec.mdat es) moov) ∧
        (Spec.traks moov).map (Spec.trakSamples w.os.data) =
          (List.range (Spec.afterAll [] calls).length).map fun i => some ((Spec.samplesOf i es).map (·.data))) := by
  obtain ⟨w1, s, es, hw1, hinv, -, hses, he1, he2, he3, hP, hmoov⟩ := simple_any os hos f ts dur now calls hf
  refine ⟨s, es, hses, he1, ?_⟩
  intro hfit hn hsz
  rw [hmoov, simpleFile_total] at hfit
  obtain ⟨w, hw, hfile⟩ := SimpleWriter.finish_eq hP hfit
  refine ⟨w, _, hw, by rw [hfile, headBoxes_simpleFile], ?_⟩
  exact simple_samples _ hinv he1 he2 he3 hd hn hsz (by omega) hfile

/-- **C40.** For every program, in whatever order its tracks get data: the finished file consists of `ftyp`, `free` (unless `mdat` needs
a 64-bit size), `mdat` with all sample data in the order it was added, and `moov`, and of nothing else. -/
theorem C40_layout (os : OStream) (hos : os.data = []) (f : Ftyp) (ts : BitVec 32) (dur now : BitVec 64) (calls : List Call)
    (hf : f.compatible_brands.length < 2 ^ 32) :
    ∃ s es, SimpleWriter.session os f ts dur now calls = .ok s ∧ Spec.Expands [] calls es ∧
      (Tree.totalList (Spec.simpleFile f (Spec.mdat es) (SimpleWriter.moovOf s)) < 2 ^ 64 →
       ∃ w moov, SimpleWriter.finish s = .ok w ∧
        w.os.data = Tree.encodeList (Spec.simpleFile f (Spec.mdat es) moov) ∧
        moov.box.type = fourcc "moov" ∧ (Spec.traks moov).length = (Spec.afterAll [] calls).length) := by
  obtain ⟨w1, s, es, hw1, hinv, -, hses, he1, he2, he3, hP, hmoov⟩ := simple_any os hos f ts dur now calls hf
  refine ⟨s, es, hses, he1, ?_⟩
  intro hfit
  rw [hmoov, simpleFile_total] at hfit
  obtain ⟨w, hw, hfile⟩ := SimpleWriter.finish_eq hP hfit
  refine ⟨w, _, hw, by rw [hfile, headBoxes_simpleFile], rfl, ?_⟩
  rw [traks_moovTree, List.length_map, List.length_map, he3.1]

/-- **C40** The size declared by `mdat`, in its 32-bit or 64-bit form, covers exactly the sample data, which starts 16
bytes behind `ftyp`. -/
theorem C40_mdat (f : Ftyp) (samples : List Byte) (moov : Tree) :
    ∃ gap, Tree.encodeList (Spec.simpleFile f samples moov) =
      (Spec.leaf "ftyp" (.ftyp f)).encode ++ gap ++ samples ++ moov.encode ∧ gap.length = 16 ∧
      gap = if samples.length + 8 < 2 ^ 32
        then [0, 0, 0, 8, 0x66, 0x72, 0x65, 0x65] ++ beBytes 4 (samples.length + 8) ++ [0x6d, 0x64, 0x61, 0x74]
        else [0, 0, 0, 1, 0x6d, 0x64, 0x61, 0x74] ++ beBytes 8 (samples.length + 16) := by
  have hfree : (Spec.leaf "free" (.opaq ⟨[]⟩)).encode = [0, 0, 0, 8, 0x66, 0x72, 0x65, 0x65] := by decide +kernel
  have hty : BoxType.bytes (fourcc "mdat") = [0x6d, 0x64, 0x61, 0x74] := by decide +kernel
  have hm : (Spec.leaf "mdat" (.opaq ⟨samples⟩)).encode = mdatHeader samples ++ samples := mdat_encode samples _
  refine ⟨_, ?_, ?_, rfl⟩
  · unfold Spec.simpleFile
    by_cases hc : samples.length + 8 < 2 ^ 32
    · have hs : Spec.headerSize samples.length = 8 := by rw [Spec.headerSize, if_pos hc]
      rw [if_pos hc, if_pos hc]
      simp only [Tree.encodeList, hfree, hm, mdatHeader, hs, Spec.boxHeader, hc, if_true, hty]
      simp
    · have hs : Spec.headerSize samples.length = 16 := by rw [Spec.headerSize, if_neg hc]
      rw [if_neg hc, if_neg hc]
      have hc2 : ¬ samples.length + 16 < 2 ^ 32 := by omega
      have h1 : beBytes 4 1 = [0, 0, 0, 1] := by decide +kernel
      simp only [Tree.encodeList, hm, mdatHeader, hs, Spec.boxHeader, hc2, if_false, hty, h1]
      simp
  · split <;> simp [beBytes_length]

/-! ### C44 -/

/-- A write outside a range of the file does not change the range. -/
theorem slice_write_outside (os : OStream) (p : List Byte) (a n : Nat) (h : a + n ≤ os.data.length)
    (hout : os.pos + p.length ≤ a ∨ a + n ≤ os.pos) : slice (os.write p).data a n = slice os.data a n := by
  by_cases hp : p = []
  · subst hp; rfl
  · apply List.ext_getElem?
    intro i
    simp only [slice, List.getElem?_take, List.getElem?_drop]
    split
    · rename_i hi
      rw [OStream.write_data_getElem os p hp]
      rcases hout with hout | hout
      · rw [if_neg (by omega), if_neg (by omega)]
      · rw [if_pos (by omega), if_pos (by omega)]
    · rfl

theorem slice_log (E L : List Byte) (k : Nat) : slice ((OStream.mk E (E.length + k)).write L).data (E.length + k) L.length = L ∧
    (L ≠ [] → ((OStream.mk E (E.length + k)).write L).data.length = E.length + k + L.length) := by
  by_cases hL : L = []
  · subst hL; simp [slice]
  · refine ⟨OStream.write_slice _ L hL, fun _ => ?_⟩
    rw [OStream.write_data_length _ L hL]
    simp only
    omega

/-- The beginning of the sample data in the file. -/
theorem simple_slice {f : Ftyp} {m : Mvhd} {w : SimpleWriter} {L M : List Byte} (h : SimpleWriter.Inv f m w (L ++ M)) :
    slice w.os.data ((ftypTree f).total + 16) L.length = L := by
  rw [h.1, ← good_encode_length (ftypTree_good f), ← Nat.add_zero ((ftypTree f).encode.length + 16),
    ← slice_slice _ ((ftypTree f).encode.length + 16) (L ++ M).length 0 L.length (by simp), Nat.add_zero, (slice_log _ _ 16).1]
  simp [slice]

theorem Spec.Expands.append {a b : List Call} : ∀ {codecs : List Codec} {es es' : List Event}, Spec.Expands codecs a es →
    Spec.Expands (Spec.afterAll codecs a) b es' → Spec.Expands codecs (a ++ b) (es ++ es') := by
  induction a with
  | nil => intro codecs es es' h h'; rw [show es = [] from h]; exact h'
  | cons c a ih =>
    intro codecs es es' h h'
    obtain ⟨blk, r, h1, rfl, h2⟩ := h
    exact ⟨blk, r ++ es', h1, by rw [List.append_assoc], ih h2 h'⟩

/-- **C44.** For every program and every later continuation of it (`more`): the sample data that has been added stays at its place in the
file through all further calls, through writing the `free` and `mdat` headers, and through writing `moov`. -/
theorem C44_never_overwritten (os : OStream) (hos : os.data = []) (f : Ftyp) (ts : BitVec 32) (dur now : BitVec 64)
    (calls more : List Call) (hf : f.compatible_brands.length < 2 ^ 32) :
    ∃ s es es', SimpleWriter.session os f ts dur now calls = .ok s ∧ Spec.Expands [] calls es ∧
      Spec.Expands (Spec.afterAll [] calls) more es' ∧
      let base := (Spec.leaf "ftyp" (.ftyp f)).total + 16
      let data := Spec.mdat es
      slice s.writer.os.data base data.length = data ∧
      slice (s.calls more).writer.os.data base data.length = data ∧
      (Tree.totalList (Spec.simpleFile f (Spec.mdat (es ++ es')) (SimpleWriter.moovOf (s.calls more))) < 2 ^ 64 →
        ∃ w2 w3, ((s.calls more).writer.appendTrakAndUdtaBoxInfo (s.calls more).tracks).1.writeFreeBoxAndMdatHeader = .ok w2 ∧
          w2.writeMoovBox = .ok w3 ∧
          slice w2.os.data base data.length = data ∧ slice w3.os.data base data.length = data) := by
  obtain ⟨w1, s, es, hw1, hinv, -, hses, he1, he2, he3, hP, hmoov⟩ := simple_any os hos f ts dur now calls hf
  obtain ⟨es', k1, k2, k3⟩ := Session.calls_reached w1 more s es (Spec.afterAll [] calls) he2 he3
  have hP' := Reached.writer_inv idStep (SimpleWriter.Inv f (newMvhd now ts dur 1)) SimpleWriter.Inv.add SimpleWriter.Inv.step k2 hinv
  rw [List.nil_append] at hP'
  have hmd := Spec.mdat_append es es'
  refine ⟨s, es, es', hses, he1, k1, ?_⟩
  intro base data
  refine ⟨?_, ?_, ?_⟩
  · exact simple_slice (M := []) (by rw [List.append_nil]; exact hP)
  · exact simple_slice (by rw [← hmd]; exact hP')
  · intro hfit
    generalize hs' : s.calls more = s' at hP' hfit ⊢
    have hmoov' : SimpleWriter.moovOf s' = moovTree (newMvhd now ts dur 1) (s'.tracks.map (·.finalize)) := by
      unfold SimpleWriter.moovOf SimpleWriter.appendTrakAndUdtaBoxInfo
      dsimp only
      rw [hP'.2.2.2, append_newMoov]
    rw [hmoov', simpleFile_total] at hfit
    obtain ⟨w3, hw3, hfile⟩ := SimpleWriter.finish_eq hP' hfit
    have hfr := SimpleWriter.writeFree_eq (w := (s'.writer.appendTrakAndUdtaBoxInfo s'.tracks).1) hP'.1 hP'.2.1 hP'.2.2.1 (by omega)
    unfold SimpleWriter.finish at hw3
    rw [hfr] at hw3
    obtain ⟨H, hH, hhead⟩ := SimpleWriter.headBoxes_eq f (Spec.mdat (es ++ es'))
    have hE := good_encode_length (ftypTree_good f)
    have hbase : base = ((ftypTree f).encode ++ H).length := by rw [List.length_append, hE, hH]; rfl
    refine ⟨_, w3, hfr, hw3, ?_, ?_⟩
    · show slice (Tree.encodeList (SimpleWriter.headBoxes f (Spec.mdat (es ++ es')))) _ _ = _
      rw [hhead, hbase, slice, List.drop_left' rfl, hmd, List.take_left' rfl]
    · rw [hfile, SimpleWriter.encodeList_append, hhead, hbase, slice, List.append_assoc, List.drop_left' rfl, hmd, List.append_assoc,
        List.take_left' rfl]

/-- **C44** Crash points.  After any program, adding more data writes at the end of the sample data, writing the headers and writing
`moov` each write one contiguous run of bytes; wherever such a run is cut off (after `k` bytes), the sample data that had been
added before is intact in the file. -/
theorem C44_crash (os : OStream) (hos : os.data = []) (f : Ftyp) (ts : BitVec 32) (dur now : BitVec 64)
    (calls : List Call) (hf : f.compatible_brands.length < 2 ^ 32) :
    ∃ s es, SimpleWriter.session os f ts dur now calls = .ok s ∧ Spec.Expands [] calls es ∧
      let base := (Spec.leaf "ftyp" (.ftyp f)).total + 16
      let data := Spec.mdat es
      (∀ (d : List Byte) (k : Nat), (s.writer.addMdatData d).os = s.writer.os.write d ∧
        slice (s.writer.os.write (d.take k)).data base data.length = data) ∧
      (Tree.totalList (Spec.simpleFile f data (SimpleWriter.moovOf s)) < 2 ^ 64 →
        ∃ w2 w3 o p o' p', (s.writer.appendTrakAndUdtaBoxInfo s.tracks).1.writeFreeBoxAndMdatHeader = .ok w2 ∧
          w2.writeMoovBox = .ok w3 ∧
          w2.os = (s.writer.os.seekp o).write p ∧ w3.os = (w2.os.seekp o').write p' ∧
          ∀ k, slice ((s.writer.os.seekp o).write (p.take k)).data base data.length = data ∧
            slice ((w2.os.seekp o').write (p'.take k)).data base data.length = data) := by
  obtain ⟨w1, s, es, hw1, hinv, -, hses, he1, he2, he3, hP, hmoov⟩ := simple_any os hos f ts dur now calls hf
  refine ⟨s, es, hses, he1, ?_⟩
  intro base data
  have hE := good_encode_length (ftypTree_good f)
  refine ⟨?_, ?_⟩
  · intro d k
    refine ⟨rfl, ?_⟩
    have hP' := SimpleWriter.Inv.add _ _ (d.take k) hP
    exact simple_slice (M := d.take k) hP'
  · intro hfit
    rw [hmoov, simpleFile_total] at hfit
    have hdl : data.length = (Spec.mdat es).length := rfl
    have hfr := SimpleWriter.writeFree_eq (w := (s.writer.appendTrakAndUdtaBoxInfo s.tracks).1) hP.1 hP.2.1 hP.2.2.1 (by omega)
    obtain ⟨H, hH, hhead⟩ := SimpleWriter.headBoxes_eq f (Spec.mdat es)
    have hgap := fill_gap (ftypTree f).encode (Spec.mdat es) H (by intro h; subst h; simp at hH)
    rw [hH, hE, ← hhead] at hgap
    have hdat : ∀ x : OStream, x.data = Tree.encodeList (SimpleWriter.headBoxes f (Spec.mdat es)) →
        slice x.data base data.length = data := by
      intro x hx
      have hbase : base = ((ftypTree f).encode ++ H).length := by rw [List.length_append, hE, hH]; rfl
      rw [hx, hhead, hbase, slice, List.drop_left' rfl, List.take_of_length_le (Nat.le_refl _)]
    have hlen : (Tree.encodeList (SimpleWriter.headBoxes f (Spec.mdat es))).length = base + data.length := by
      rw [hhead, List.length_append, List.length_append, hE, hH]; rfl
    obtain ⟨w3, hw3, hw3os⟩ : ∃ w3, SimpleWriter.writeMoovBox { (s.writer.appendTrakAndUdtaBoxInfo s.tracks).1 with
        os := ⟨Tree.encodeList (SimpleWriter.headBoxes f (Spec.mdat es)), (ftypTree f).total + 16⟩ } = .ok w3 ∧
        ∃ p', w3.os = ((OStream.mk (Tree.encodeList (SimpleWriter.headBoxes f (Spec.mdat es))) ((ftypTree f).total + 16)).seekp
          (base + data.length)).write p' := by
      have hu : u64 data.length = data.length := Nat.mod_eq_of_lt (by omega)
      unfold SimpleWriter.writeMoovBox SimpleWriter.setOffsetAndSize
      dsimp only
      rw [show (s.writer.appendTrakAndUdtaBoxInfo s.tracks).1.ftyp_size = some (ftypTree f).total from hP.2.2.1]
      simp only [initialised]
      have ho : u64 (u64 ((ftypTree f).total + LARGE_HEADER_SIZE) + (s.writer.appendTrakAndUdtaBoxInfo s.tracks).1.mdat_data_size)
          = base + data.length := by
        rw [show (s.writer.appendTrakAndUdtaBoxInfo s.tracks).1.mdat_data_size = u64 data.length from hP.2.1, hu]
        show u64 (u64 ((ftypTree f).total + 16) + data.length) = (ftypTree f).total + 16 + data.length
        unfold u64
        rw [Nat.mod_eq_of_lt (a := (ftypTree f).total + 16) (by omega)]
        exact Nat.mod_eq_of_lt (by omega)
      have hbd : base + data.length = (ftypTree f).total + 16 + (Spec.mdat es).length := rfl
      rw [ho, show (s.writer.appendTrakAndUdtaBoxInfo s.tracks).1.moov = _ from hmoov,
        adjustTree_good (moovTree_good _ _) (by omega)]
      dsimp only
      rw [setNextTrackID_place, writeTree_place (moovTree_good _ _) _ _ (by rw [moovTree_total_id]; omega)]
      exact ⟨_, rfl, _, rfl⟩
    obtain ⟨p', hp'⟩ := hw3os
    refine ⟨_, w3, (ftypTree f).total, H, base + data.length, p', hfr, hw3, ?_, ?_, ?_⟩
    · rw [hP.1, hgap]
    · exact hp'
    · intro k
      refine ⟨?_, ?_⟩
      · by_cases hd : data = []
        · rw [hd]; simp [slice]
        · have hl := (slice_log (ftypTree f).encode (Spec.mdat es) 16).2 hd
          rw [hE] at hl
          rw [slice_write_outside]
          · have := simple_slice (M := []) (w := s.writer) (f := f) (L := data) (by rw [List.append_nil]; exact hP)
            exact this
          · show base + data.length ≤ s.writer.os.data.length
            rw [hP.1, hl]
            exact Nat.le_refl _
          · left
            show (ftypTree f).total + (H.take k).length ≤ (ftypTree f).total + 16
            rw [List.length_take]
            omega
      · rw [slice_write_outside]
        · exact hdat _ rfl
        · show base + data.length ≤ (Tree.encodeList (SimpleWriter.headBoxes f (Spec.mdat es))).length
          omega
        · right
          exact Nat.le_refl _

end Mp4
