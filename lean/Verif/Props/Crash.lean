import Verif.Lemmas.Crash
import Verif.Props.CutOff
import Verif.Props.ToEof
import Verif.Props.Faults
import Verif.Props.ReadMovie

/-! # C71: what a program that is stopped leaves behind -/

namespace Mp4
open SimpleReader

/-- The part of the proof that is common to the theorems below. -/
theorem simple_stores (os : OStream) (hos : os.data = []) (f : Ftyp) (ts : BitVec 32) (dur now : BitVec 64) (calls : List Call)
    (hf : f.compatible_brands.length < 2 ^ 32) :
    ∃ s0 es, SimpleWriter.session os f ts dur now calls = .ok s0 ∧ Spec.Expands [] calls es ∧
      (Tree.totalList (Spec.simpleFile f (Spec.mdat es) (SimpleWriter.moovOf s0)) < 2 ^ 64 →
       ∃ w moov s x, SimpleWriter.finish s0 = .ok w ∧ w.os.data = Tree.encodeList (Spec.simpleFile f (Spec.mdat es) moov) ∧ moov.All Good ∧
        moov.total = (SimpleWriter.moovOf s0).total ∧
        FaultySimple.session Device.fine os f ts dur now calls = .ok s ∧ FaultySimple.finish s = .ok x ∧ x.s.os.data = w.os.data ∧
        x.s.log = storesAt 0 (ftypTree f).encode ++ storesAt ((ftypTree f).encode.length + 16) (Spec.mdat es) ++
          storesAt (ftypTree f).encode.length (gapBytes (Spec.mdat es)) ++
          storesAt ((ftypTree f).encode.length + 16 + (Spec.mdat es).length) moov.encode) := by
  obtain ⟨w1, s0, es, -, -, -, hses, he1, -, -, hP, hmoov⟩ := simple_any os hos f ts dur now calls hf
  obtain ⟨s0', es', hses', he1', hall⟩ := simple_faulty os hos f ts dur now calls hf
  refine ⟨s0, es, hses, he1, ?_⟩
  rw [hses] at hses'; cases hses'
  rw [hmoov, simpleFile_total]
  intro hfit
  obtain ⟨w, hw, hfile⟩ := SimpleWriter.finish_eq hP hfit
  have hE := good_encode_length (ftypTree_good f)
  rcases FaultySimple.session_cases Device.fine os f ts dur now calls hf with ⟨e, -, hF⟩ | ⟨s, s0', hs, h2, hq, ht⟩
  · exact absurd hF fine_never
  rw [hses] at h2; cases h2
  rcases FaultySimple.finish_cases hq ht hP hfit with ⟨e, -, hF⟩ | ⟨x, s1, hx, h2, h3, -⟩
  · exact absurd hF fine_never
  obtain ⟨L, hl1, hl2⟩ := FaultySimple.session_log os hos f ts dur now calls hf s s0 hs hses
  have hL : L = Spec.mdat es := by
    have := hP.1
    rw [hl2, ← hE] at this
    exact write_gap_inj this
  subst hL
  have hc1 := fine_clean h2
  have hc2 := fine_clean h3
  have hr : s.writer.s.refused = [] := by
    by_cases hr : s.writer.s.refused = []
    · exact hr
    · obtain ⟨t, p, -, -, c⟩ := hq.lost hr
      cases c
  have htr : s.tracks = s0.tracks := by
    apply List.ext_getElem ht.1
    intro i h1 h2
    exact (ht.2 i _ _ (List.getElem?_eq_getElem h1) (List.getElem?_eq_getElem h2)).2 hr
  refine ⟨w, moovTree { newMvhd now ts dur 1 with next_track_id := s0.writer.next_track_id } (s0.tracks.map (·.finalize)), s, x, hw,
    by rw [hfile, headBoxes_simpleFile], moovTree_good _ _, rfl, hs, hx, ?_, ?_⟩
  · have hdata : w.os.data = (ftypTree f).encode ++ gapBytes (Spec.mdat es) ++ Spec.mdat es ++
        (moovTree { newMvhd now ts dur 1 with next_track_id := s0.writer.next_track_id } (s0.tracks.map (·.finalize))).encode := by
      rw [hfile, SimpleWriter.encodeList_append, headBoxes_gap]
      simp [Tree.encodeList]
    rw [hc2.1, htr, hc1.1, hq.clean hr, hP.1, hdata]
    have hgap := fill_gap (ftypTree f).encode (Spec.mdat es) (gapBytes (Spec.mdat es)) (by
      intro h0
      have := gapBytes_length (Spec.mdat es)
      rw [h0] at this; cases this)
    rw [hE, gapBytes_length] at hgap
    rw [hgap]
    have := OStream.write_end ((ftypTree f).encode ++ gapBytes (Spec.mdat es) ++ Spec.mdat es)
      (moovTree { newMvhd now ts dur 1 with next_track_id := s0.writer.next_track_id } (s0.tracks.map (·.finalize))).encode
    simp only [List.length_append, gapBytes_length, hE] at this
    simp only [OStream.seekp, this]
  · rw [hc2.2.2, hc1.2.2, hl1, htr, hE]

/-- **C71** A program with `SimpleWriter` stores one byte after the other; whenever it is stopped, after `n` bytes, the file is the one that
`Spec.interrupted` describes: parts of `ftyp`, the samples, the 16 bytes between them and `moov` are stored in this order. -/
theorem C71_simple (os : OStream) (hos : os.data = []) (f : Ftyp) (ts : BitVec 32) (dur now : BitVec 64) (calls : List Call)
    (hf : f.compatible_brands.length < 2 ^ 32) :
    ∃ s0 es, SimpleWriter.session os f ts dur now calls = .ok s0 ∧ Spec.Expands [] calls es ∧
      (Tree.totalList (Spec.simpleFile f (Spec.mdat es) (SimpleWriter.moovOf s0)) < 2 ^ 64 →
       ∃ w moov G s x, SimpleWriter.finish s0 = .ok w ∧ w.os.data = Tree.encodeList (Spec.simpleFile f (Spec.mdat es) moov) ∧
        w.os.data = (Spec.leaf "ftyp" (.ftyp f)).encode ++ G ++ Spec.mdat es ++ moov.encode ∧ G.length = 16 ∧
        FaultySimple.session Device.fine os f ts dur now calls = .ok s ∧ FaultySimple.finish s = .ok x ∧ x.s.os.data = w.os.data ∧
        x.s.log.length = w.os.data.length ∧
        ∀ n, fileAfter x.s.log n = Spec.interrupted (Spec.leaf "ftyp" (.ftyp f)).encode G (Spec.mdat es) moov.encode n) := by
  obtain ⟨s0, es, h1, h2, h3⟩ := simple_stores os hos f ts dur now calls hf
  refine ⟨s0, es, h1, h2, fun hfit => ?_⟩
  obtain ⟨w, moov, s, x, h4, h5, -, -, h6, h7, h8, h9⟩ := h3 hfit
  have hdata : w.os.data = (ftypTree f).encode ++ gapBytes (Spec.mdat es) ++ Spec.mdat es ++ moov.encode := by
    rw [h5, ← headBoxes_simpleFile, SimpleWriter.encodeList_append, headBoxes_gap]
    simp [Tree.encodeList]
  refine ⟨w, moov, gapBytes (Spec.mdat es), s, x, h4, h5, hdata, gapBytes_length _, h6, h7, h8, ?_, ?_⟩
  · rw [h9, hdata]
    simp only [List.length_append, storesAt_length]
    omega
  · intro n
    rw [h9, interrupted_eq _ _ _ _ (gapBytes_length _)]
    rfl

/-- **C71** The bytes of the samples that were stored when the program was stopped are in the file, at their final position: the `j`-th
byte of the samples stays where `addMdatData` put it. -/
theorem C71_simple_samples (E G L M : List Byte) (hG : G.length = 16) (n j : Nat) (hj : j < L.length) (hn : E.length + j < n) :
    (Spec.interrupted E G L M n)[E.length + 16 + j]? = L[j]? := by
  unfold Spec.interrupted
  rw [if_neg (by omega)]
  have hne : L ≠ [] := by intro h; rw [h] at hj; cases hj
  by_cases h2 : n ≤ E.length + L.length
  · rw [if_pos h2, List.getElem?_append_right (by simp)]
    simp only [List.length_append, List.length_replicate]
    rw [Nat.add_sub_cancel_left, List.getElem?_take_of_lt (by omega)]
  rw [if_neg h2]
  by_cases h3 : n ≤ E.length + L.length + 16
  · rw [if_pos h3, if_neg hne, List.getElem?_append_right (by simp [hG]; omega), List.getElem?_append_right (by simp [hG]; omega)]
    congr 1
    simp [hG]; omega
  · rw [if_neg h3, List.append_assoc (E ++ G), List.getElem?_append_right (by simp [hG]), List.getElem?_append_left (by simp [hG]; exact hj)]
    congr 1
    simp [hG]

theorem headBoxes_encodable (f : Ftyp) (L : List Byte) : Tree.AllList Tree.Encodable (SimpleWriter.headBoxes f L) := by
  have h1 := good_encodable (ftypTree_good f)
  unfold SimpleWriter.headBoxes
  split
  · exact ⟨h1, ⟨⟨trivial, trivial⟩, trivial⟩, ⟨⟨trivial, trivial⟩, trivial⟩, trivial⟩
  · exact ⟨h1, ⟨⟨trivial, trivial⟩, trivial⟩, trivial⟩

/-- **C71** What a reader makes of such a file: cut off inside `ftyp` or inside `moov` it is rejected; stopped while samples are added, it is
read as `ftyp` and a box of unknown type up to the end of the file, which contains the samples stored so far behind 8 zeros. -/
theorem C71_simple_read (os : OStream) (hos : os.data = []) (f : Ftyp) (ts : BitVec 32) (dur now : BitVec 64) (calls : List Call)
    (hf : f.compatible_brands.length < 2 ^ 32) :
    ∃ s0 es, SimpleWriter.session os f ts dur now calls = .ok s0 ∧ Spec.Expands [] calls es ∧
      (Tree.totalList (Spec.simpleFile f (Spec.mdat es) (SimpleWriter.moovOf s0)) < 2 ^ 63 →
       ∃ s x, FaultySimple.session Device.fine os f ts dur now calls = .ok s ∧ FaultySimple.finish s = .ok x ∧
        ∀ (sr : SimpleReader) (n F : Nat), sr.map = stdBoxMap → sr.data = fileAfter x.s.log n → F = (Spec.leaf "ftyp" (.ftyp f)).encode.length →
          (0 < n ∧ n < F → ∃ vs e, sr.read = some ⟨vs, .error e⟩) ∧
          (F < n ∧ n ≤ F + (Spec.mdat es).length → ∃ vs a b, sr.read = some ⟨vs, .ok [a, b]⟩ ∧
            a.box.type = fourcc "ftyp" ∧ a.box.data = .ftyp f ∧
            b.box.type = fourcc "unsu" ∧ b.box.data = .opaq ⟨List.replicate 8 0 ++ (Spec.mdat es).take (n - F)⟩) ∧
          (F + (Spec.mdat es).length + 16 < n ∧ n < x.s.log.length → ∃ vs e, sr.read = some ⟨vs, .error e⟩)) := by
  obtain ⟨s0, es, h1, h2, h3⟩ := simple_stores os hos f ts dur now calls hf
  refine ⟨s0, es, h1, h2, fun hfit => ?_⟩
  obtain ⟨w, moov, s, x, h4, h5, hgood, htot, h6, h7, h8, h9⟩ := h3 (by omega)
  refine ⟨s, x, h6, h7, fun sr n F hm hd hF => ?_⟩
  have hF : F = (ftypTree f).encode.length := hF
  have hE := good_encode_length (ftypTree_good f)
  have hM := good_encode_length hgood
  rw [simpleFile_total, ← htot] at hfit
  have hlog : x.s.log.length = (ftypTree f).total + (Spec.mdat es).length + 16 + moov.total := by
    rw [h9]
    simp only [List.length_append, storesAt_length, gapBytes_length, hE, hM]
  rw [h9, interrupted_eq _ _ _ _ (gapBytes_length _)] at hd
  unfold Spec.interrupted at hd
  refine ⟨?_, ?_, ?_⟩
  · rintro ⟨a, b⟩
    rw [if_pos (by omega)] at hd
    exact cut_tree sr [] (ftypTree f) n trivial (good_encodable (ftypTree_good f)) (by rw [hd]; rfl) a (by omega)
      (by rw [Tree.totalList]; omega)
  · rintro ⟨a, b⟩
    rw [if_neg (by omega), if_pos (by omega)] at hd
    have hfit1 : Tree.FitList [ftypTree f] := ⟨ftyp_fit f, trivial⟩
    have key := C73_to_the_end sr [ftypTree f] ⟨0, 0, 0, 0⟩ (List.replicate 8 0 ++ (Spec.mdat es).take (n - F))
      (by
        rw [hd, hF, Tree.encodeList, Tree.encodeList, List.append_nil, List.append_assoc]
        rfl)
      (by
        rw [hd]
        simp only [List.length_append, List.length_replicate, List.length_take]
        omega)
      (Tree.FitList.surviving sr hm _ 0 hfit1)
      (.inl (by rw [hm]; decide +kernel))
    dsimp only at key
    have hnone : sr.map.find ⟨0, 0, 0, 0⟩ = none := by rw [hm]; decide +kernel
    rw [hnone] at key
    have hk := Tree.FitList.kept sr hm _ [] 0 hfit1
    obtain ⟨t', hback⟩ : ∃ t', Tree.readBackList sr [] 0 [ftypTree f] = [t'] := ⟨_, by rw [Tree.readBackList, Tree.readBackList]⟩
    rw [hback] at key hk
    refine ⟨_, t', _, key, hk.1.type, ?_, rfl, rfl⟩
    obtain ⟨_, h⟩ := hk.1.data
    rw [h]; rfl
  · rintro ⟨a, b⟩
    rw [if_neg (by omega), if_neg (by omega), if_neg (by omega)] at hd
    have hH : Tree.totalList (SimpleWriter.headBoxes f (Spec.mdat es)) = (ftypTree f).total + 16 + (Spec.mdat es).length := by
      rw [← Tree.encodeList_length _ (headBoxes_encodable f _), headBoxes_gap]
      simp only [List.length_append, gapBytes_length, hE]
    refine cut_tree sr (SimpleWriter.headBoxes f (Spec.mdat es)) moov (n - F - (Spec.mdat es).length - 16)
      (headBoxes_encodable f _) (good_encodable hgood) ?_ (by omega) (by omega) (by omega)
    rw [hd, headBoxes_gap, hF]

/-- The part of the proof that is common to the theorems below. -/
theorem faststart_stores (os : OStream) (hos : os.data = []) (f : Ftyp) (ts : BitVec 32) (dur now : BitVec 64) (calls : List Call)
    (hf : f.compatible_brands.length < 2 ^ 32) :
    ∃ s0 es, FaststartWriter.session os f ts dur now calls = .ok s0 ∧ Spec.Expands [] calls es ∧
      (FaststartWriter.sizeBound s0 f (Spec.mdat es) < 2 ^ 63 →
       ∃ w moov s x, FaststartWriter.finish s0 = .ok w ∧ w.os.data = Tree.encodeList (Spec.faststartFile f (Spec.mdat es) moov) ∧
        moov.All Good ∧ Tree.totalList (Spec.faststartFile f (Spec.mdat es) moov) < 2 ^ 63 ∧
        FaultyFaststart.session Device.fine os f ts dur now calls = .ok s ∧ FaultyFaststart.finish s = .ok x ∧ x.s.os.data = w.os.data ∧
        x.s.log.length = w.os.data.length ∧ ∀ n, fileAfter x.s.log n = w.os.data.take n) := by
  obtain ⟨s0, es, h1, h2, h3⟩ := faststart_faulty os hos f ts dur now calls hf
  refine ⟨s0, es, h1, h2, fun hfit => ?_⟩
  obtain ⟨w, moov, h4, h5, hg, h6⟩ := h3 hfit
  have hm : Device.fine.Monotone := by intro t p t' p' h; cases h
  obtain ⟨h7, h8⟩ := h6 _ rfl Device.fine hm
  cases hs : FaultyFaststart.session Device.fine os f ts dur now calls with
  | error e => exact absurd (h7 e hs) fine_never
  | ok s =>
    obtain ⟨h9, h10⟩ := h8 s hs
    cases hx : FaultyFaststart.finish s with
    | error e => exact absurd (h9 e hx) fine_never
    | ok x =>
      rcases (h10 x hx).2 with ⟨h11, h12⟩ | ⟨k, -, -, -, t, h⟩
      · refine ⟨w, moov, s, x, h4, h5, hg.1, Nat.lt_of_le_of_lt hg.2 hfit, rfl, hx, h11, by rw [h12, storesAt_length], fun n => ?_⟩
        rw [h12, fileAfter_storesAt]
      · cases h

/-- **C71** A program with `FaststartWriter` stores its bytes from the first to the last: whenever it is stopped, the file is a beginning of the
finished file. -/
theorem C71_faststart (os : OStream) (hos : os.data = []) (f : Ftyp) (ts : BitVec 32) (dur now : BitVec 64) (calls : List Call)
    (hf : f.compatible_brands.length < 2 ^ 32) :
    ∃ s0 es, FaststartWriter.session os f ts dur now calls = .ok s0 ∧ Spec.Expands [] calls es ∧
      (FaststartWriter.sizeBound s0 f (Spec.mdat es) < 2 ^ 63 →
       ∃ w moov s x, FaststartWriter.finish s0 = .ok w ∧ w.os.data = Tree.encodeList (Spec.faststartFile f (Spec.mdat es) moov) ∧
        FaultyFaststart.session Device.fine os f ts dur now calls = .ok s ∧ FaultyFaststart.finish s = .ok x ∧ x.s.os.data = w.os.data ∧
        x.s.log.length = w.os.data.length ∧ ∀ n, fileAfter x.s.log n = w.os.data.take n) := by
  obtain ⟨s0, es, h1, h2, h3⟩ := faststart_stores os hos f ts dur now calls hf
  refine ⟨s0, es, h1, h2, fun hfit => ?_⟩
  obtain ⟨w, moov, s, x, h4, h5, -, -, h⟩ := h3 hfit
  exact ⟨w, moov, s, x, h4, h5, h⟩

/-- **C71** What a reader makes of such a file: it rejects every proper part of it, other than nothing, `ftyp` alone, and `ftyp` with `moov`. -/
theorem C71_faststart_read (os : OStream) (hos : os.data = []) (f : Ftyp) (ts : BitVec 32) (dur now : BitVec 64) (calls : List Call)
    (hf : f.compatible_brands.length < 2 ^ 32) :
    ∃ s0 es, FaststartWriter.session os f ts dur now calls = .ok s0 ∧ Spec.Expands [] calls es ∧
      (FaststartWriter.sizeBound s0 f (Spec.mdat es) < 2 ^ 63 →
       ∃ moov s x, FaultyFaststart.session Device.fine os f ts dur now calls = .ok s ∧ FaultyFaststart.finish s = .ok x ∧
        x.s.os.data = Tree.encodeList (Spec.faststartFile f (Spec.mdat es) moov) ∧
        ∀ (sr : SimpleReader) (n : Nat), sr.data = fileAfter x.s.log n → 0 < n → n ≠ (Spec.leaf "ftyp" (.ftyp f)).encode.length →
          n ≠ (Spec.leaf "ftyp" (.ftyp f)).encode.length + moov.encode.length → n < x.s.log.length →
          ∃ vs e, sr.read = some ⟨vs, .error e⟩) := by
  obtain ⟨s0, es, h1, h2, h3⟩ := faststart_stores os hos f ts dur now calls hf
  refine ⟨s0, es, h1, h2, fun hfit => ?_⟩
  obtain ⟨w, M, s, x, h4, hdata, hgood, htot, h6, h7, h8, h9, h10⟩ := h3 hfit
  refine ⟨M, s, x, h6, h7, by rw [h8, hdata], fun sr n hd h0 hn1 hn2 hn3 => ?_⟩
  rw [h10 n, hdata] at hd
  rw [h9, hdata] at hn3
  rw [faststartFile_total] at htot
  unfold Spec.faststartFile at hd hn3
  have hmd : (Spec.leaf "mdat" (.opaq ⟨Spec.mdat es⟩)).All Tree.Encodable := ⟨⟨trivial, trivial⟩, trivial⟩
  have hft : (Spec.leaf "ftyp" (.ftyp f)).All Tree.Encodable := good_encodable (ftypTree_good f)
  have hme := good_encodable hgood
  have e0 : (Spec.leaf "ftyp" (.ftyp f)).total = (ftypTree f).total := rfl
  have e1 := Tree.encode_length _ hft
  have e2 := Tree.encode_length _ hme
  have e3 := Tree.encode_length _ hmd
  have e4 : (Spec.leaf "mdat" (.opaq ⟨Spec.mdat es⟩)).total = (Spec.mdat es).length + Spec.headerSize (Spec.mdat es).length := rfl
  generalize Spec.leaf "ftyp" (.ftyp f) = A at *
  generalize Spec.leaf "mdat" (.opaq ⟨Spec.mdat es⟩) = B at *
  simp only [Tree.encodeList, List.append_nil, List.length_append] at hd hn3
  by_cases c1 : n < A.encode.length
  · refine cut_tree sr [] A n trivial hft ?_ h0 (by omega) (by rw [Tree.totalList]; omega)
    rw [hd, List.take_append_of_le_length (by omega)]; rfl
  rw [List.take_append, List.take_of_length_le (by omega)] at hd
  by_cases c2 : n < A.encode.length + M.encode.length
  · refine cut_tree sr [A] M (n - A.encode.length) ⟨hft, trivial⟩ hme ?_ (by omega) (by omega)
      (by rw [Tree.totalList_cons, Tree.totalList]; omega)
    rw [hd, List.take_append_of_le_length (by omega)]
    simp [Tree.encodeList]
  · rw [List.take_append, List.take_of_length_le (by omega)] at hd
    refine cut_tree sr [A, M] B (n - A.encode.length - M.encode.length) ⟨hft, hme, trivial⟩ hmd ?_ (by omega) (by omega)
      (by rw [Tree.totalList_cons, Tree.totalList_cons, Tree.totalList]; omega)
    rw [hd]
    simp [Tree.encodeList]

end Mp4
