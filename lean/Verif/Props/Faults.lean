import Verif.Lemmas.FaultsFaststart
import Verif.Props.WriterExamples

/-! # C69: what the writers report when the output device fails -/

namespace Mp4

/-- A full disk and a device that breaks for good are monotone. -/
theorem full_monotone (n : Nat) : (Device.full n).Monotone := by
  intro t p t' p' h _ hp
  simp only [Device.full, decide_eq_false_iff_not] at h ⊢
  omega

theorem breaks_monotone (n : Nat) : (Device.breaks n).Monotone := by
  intro t p t' p' h ht _
  simp only [Device.breaks, decide_eq_false_iff_not] at h ⊢
  omega

/-- **C69** The content of a box goes through `bitio::Writer`, which notices: when `writeData` returns without an exception, all bytes of
the content are stored. -/
theorem C69_content_reports (dev : Device) (d : BoxData) (s : FStream) (h : d.Writable ∧ d.LanguageOk) (hg : s.good = true) :
    (∃ n s', d.writeData.runF dev s = (.ok n, s') ∧ s'.os = s.os.write (Layout.payload d) ∧ s'.refused = s.refused) ∨
    ∃ e s', d.writeData.runF dev s = (.error e, s') := by
  rcases payloadF dev d s h hg with ⟨n, h1, -⟩ | ⟨k, e, s', -, h1, -⟩
  · exact .inl ⟨n, _, h1, rfl, rfl⟩
  · exact .inr ⟨e, s', h1⟩

/-- **C69** The header of a box does not: whatever bytes of it the device refuses, `BoxHeader::write` returns as usual and the stream is
`good()`, if only the seek succeeds. -/
theorem C69_header_silent (dev : Device) (h : BoxHeader) (s : FStream) (hg : s.good = true) (hs : dev.seek s.tries h.offset = true) :
    ∃ n h' s', h.writeF dev s = (.ok n, h', s') ∧ s'.good = true ∧
      ((∀ t p, dev.put t p = false) → s'.os.data = s.os.data) := by
  have hseek : s.seekp dev h.offset = { s with os := s.os.seekp h.offset, tries := s.tries + 1 } := by
    rw [FStream.seekp, if_pos hg, if_pos hs]
  unfold BoxHeader.writeF
  dsimp only
  rw [hseek, if_pos hg]
  refine ⟨_, _, _, rfl, by rw [FStream.copyOut_good]; exact hg, fun hp => ?_⟩
  cases h.headerBytes with
  | nil => rfl
  | cons b l =>
    rw [FStream.copyOut, FStream.sputc, if_neg (by rw [hp]; simp)]
    rfl

/-- **C69** `addMdatData` never notices: after every sequence of calls the stream of `SimpleWriter` is `good()`, whatever the device
refused. -/
theorem C69_samples_silent (dev : Device) (os : OStream) (f : Ftyp) (ts : BitVec 32) (dur now : BitVec 64) (calls : List Call)
    (hf : f.compatible_brands.length < 2 ^ 32) (s : Session FaultySimple)
    (h : FaultySimple.session dev os f ts dur now calls = .ok s) : s.writer.s.good = true := by
  rcases FaultySimple.session_cases dev os f ts dur now calls hf with ⟨e, he, -⟩ | ⟨s', s0, h1, -, hq, -⟩
  · rw [h] at he; cases he
  · rw [h] at h1; cases h1
    exact hq.good

/-- The file of a program on a device that accepts everything, and the part of the proof that is common to the theorems below. -/
theorem simple_faulty (os : OStream) (hos : os.data = []) (f : Ftyp) (ts : BitVec 32) (dur now : BitVec 64) (calls : List Call)
    (hf : f.compatible_brands.length < 2 ^ 32) :
    ∃ s0 es, SimpleWriter.session os f ts dur now calls = .ok s0 ∧ Spec.Expands [] calls es ∧
      (Tree.totalList (Spec.simpleFile f (Spec.mdat es) (SimpleWriter.moovOf s0)) < 2 ^ 64 →
       ∃ w, SimpleWriter.finish s0 = .ok w ∧
        w.os.data.length = Tree.totalList (Spec.simpleFile f (Spec.mdat es) (SimpleWriter.moovOf s0)) ∧
        ∀ dev,
          (∀ s x, dev.Monotone → FaultySimple.session dev os f ts dur now calls = .ok s → FaultySimple.finish s = .ok x →
            x.s.os.data = w.os.data ∧ x.s.refused = []) ∧
          (∀ e, FaultySimple.session dev os f ts dur now calls = .error e → Fails dev { os } w.os.data.length) ∧
          (∀ s e, FaultySimple.session dev os f ts dur now calls = .ok s → FaultySimple.finish s = .error e →
            Fails dev s.writer.s w.os.data.length)) := by
  obtain ⟨w1, s0, es, -, -, -, hses, he1, -, -, hP, hmoov⟩ := simple_any os hos f ts dur now calls hf
  refine ⟨s0, es, hses, he1, ?_⟩
  rw [hmoov, simpleFile_total]
  intro hfit
  obtain ⟨w, hw, hfile⟩ := SimpleWriter.finish_eq hP hfit
  have hE := good_encode_length (ftypTree_good f)
  generalize hM : moovTree { newMvhd now ts dur 1 with next_track_id := s0.writer.next_track_id } (s0.tracks.map (·.finalize)) = M at hfile
  have hMt : (moovTree (newMvhd now ts dur 1) (s0.tracks.map (·.finalize))).total = M.total := by rw [← hM]; rfl
  have hMe : M.encode.length = M.total := by rw [← hM]; exact good_encode_length (moovTree_good _ _)
  have hdata : w.os.data = (ftypTree f).encode ++ gapBytes (Spec.mdat es) ++ Spec.mdat es ++ M.encode := by
    rw [hfile, SimpleWriter.encodeList_append, headBoxes_gap]
    simp [Tree.encodeList]
  have hlen : w.os.data.length = (ftypTree f).total + 16 + (Spec.mdat es).length + M.total := by
    rw [hdata]; simp only [List.length_append, gapBytes_length, hE, hMe]
  have hpos : s0.writer.os.pos = (ftypTree f).total + 16 + (Spec.mdat es).length := by rw [hP.1, OStream.write_pos]
  refine ⟨w, hw, by omega, fun dev => ⟨?_, ?_, ?_⟩⟩
  · intro s x hm hs hx
    rcases FaultySimple.session_cases dev os f ts dur now calls hf with ⟨e, he, -⟩ | ⟨s', s0', h1, h2, hq, ht⟩
    · rw [hs] at he; cases he
    rw [hs] at h1; cases h1
    rw [hses] at h2; cases h2
    rcases FaultySimple.finish_cases hq ht hP hfit with ⟨e, he, -⟩ | ⟨x', s1, h1, h2, h3, h4⟩
    · rw [hx] at he; cases he
    rw [hx] at h1; cases h1
    obtain ⟨hd, hc⟩ := h4 hm
    have hr : s.writer.s.refused = [] := by
      by_cases hr : s.writer.s.refused = []
      · exact hr
      · exfalso
        obtain ⟨t, p, a, b, c⟩ := hq.lost hr
        have := h2.2.1
        exact hd ⟨t, p, by omega, by omega, c⟩
    have hg : Clean s.writer.s (ftypTree f).total (gapBytes (Spec.mdat es)) s1 := by
      rcases h2.2.2 with hg | hg
      · exact hg
      · exfalso
        refine hd (hg.doomed.mono (Nat.le_refl _) ?_)
        rw [gapBytes_length]; omega
    have htr : s.tracks = s0.tracks := by
      apply List.ext_getElem ht.1
      intro i h1 h2
      exact (ht.2 i _ _ (List.getElem?_eq_getElem h1) (List.getElem?_eq_getElem h2)).2 hr
    refine ⟨?_, by rw [hc.2.1, hg.2.1, hr]⟩
    rw [hc.1, htr, hM, hg.1, hq.clean hr, hP.1, hdata]
    have hgap := fill_gap (ftypTree f).encode (Spec.mdat es) (gapBytes (Spec.mdat es)) (by
      intro h0
      have := gapBytes_length (Spec.mdat es)
      rw [h0] at this; cases this)
    rw [hE, gapBytes_length] at hgap
    rw [hgap]
    have := OStream.write_end ((ftypTree f).encode ++ gapBytes (Spec.mdat es) ++ Spec.mdat es) M.encode
    simp only [List.length_append, gapBytes_length, hE] at this
    simp only [OStream.seekp, this]
  · intro e he
    rcases FaultySimple.session_cases dev os f ts dur now calls hf with ⟨e', he', hF⟩ | ⟨s', s0', h1, -⟩
    · exact hF.mono (Nat.le_refl _) (by omega)
    · rw [he] at h1; cases h1
  · intro s e hs he
    rcases FaultySimple.session_cases dev os f ts dur now calls hf with ⟨e', he', hF⟩ | ⟨s', s0', h1, h2, hq, ht⟩
    · rw [hs] at he'; cases he'
    rw [hs] at h1; cases h1
    rw [hses] at h2; cases h2
    rcases FaultySimple.finish_cases hq ht hP hfit with ⟨e', he', hF⟩ | ⟨x', s1, h1, -⟩
    · exact hF.mono (Nat.le_refl _) (by omega)
    · rw [he] at h1; cases h1

/-- **C69** `SimpleWriter` on a device that, having refused a byte, refuses everything behind it (a full disk, a device that breaks for
good): when a program ends without an exception, its file is the same as on a device that accepts everything. -/
theorem C69_simple_reports (os : OStream) (hos : os.data = []) (f : Ftyp) (ts : BitVec 32) (dur now : BitVec 64) (calls : List Call)
    (hf : f.compatible_brands.length < 2 ^ 32) :
    ∃ s0 es, SimpleWriter.session os f ts dur now calls = .ok s0 ∧ Spec.Expands [] calls es ∧
      (Tree.totalList (Spec.simpleFile f (Spec.mdat es) (SimpleWriter.moovOf s0)) < 2 ^ 64 →
       ∃ w, SimpleWriter.finish s0 = .ok w ∧
        ∀ dev s x, dev.Monotone → FaultySimple.session dev os f ts dur now calls = .ok s → FaultySimple.finish s = .ok x →
          x.s.os.data = w.os.data) := by
  obtain ⟨s0, es, h1, h2, h3⟩ := simple_faulty os hos f ts dur now calls hf
  refine ⟨s0, es, h1, h2, fun hfit => ?_⟩
  obtain ⟨w, hw, -, h4⟩ := h3 hfit
  exact ⟨w, hw, fun dev s x hm hs hx => ((h4 dev).1 s x hm hs hx).1⟩

/-- **C69** In particular on a disk with room for `n` bytes: the program ends without an exception exactly when its file fits. -/
theorem C69_simple_full_disk (os : OStream) (hos : os.data = []) (f : Ftyp) (ts : BitVec 32) (dur now : BitVec 64) (calls : List Call)
    (hf : f.compatible_brands.length < 2 ^ 32) :
    ∃ s0 es, SimpleWriter.session os f ts dur now calls = .ok s0 ∧ Spec.Expands [] calls es ∧
      (Tree.totalList (Spec.simpleFile f (Spec.mdat es) (SimpleWriter.moovOf s0)) < 2 ^ 64 →
       ∃ w, SimpleWriter.finish s0 = .ok w ∧
        w.os.data.length = Tree.totalList (Spec.simpleFile f (Spec.mdat es) (SimpleWriter.moovOf s0)) ∧
        ∀ n, (∃ s x, FaultySimple.session (Device.full n) os f ts dur now calls = .ok s ∧ FaultySimple.finish s = .ok x) ↔
          w.os.data.length ≤ n) := by
  obtain ⟨s0, es, h1, h2, h3⟩ := simple_faulty os hos f ts dur now calls hf
  refine ⟨s0, es, h1, h2, fun hfit => ?_⟩
  obtain ⟨w, hw, hl, h4⟩ := h3 hfit
  refine ⟨w, hw, hl, fun n => ?_⟩
  obtain ⟨h5, h6, h7⟩ := h4 (Device.full n)
  have hno : ∀ s N, Fails (Device.full n) s N → n < N := by
    intro s N hF
    obtain ⟨t, -, ⟨p, hp, h⟩ | ⟨p, h⟩⟩ := hF
    · simp only [Device.full, decide_eq_false_iff_not] at h; omega
    · cases h
  constructor
  · rintro ⟨s, x, hs, hx⟩
    have hk := full_kept n
    obtain ⟨k1, k2⟩ := hk.simpleSession (by show os.data.length ≤ n; rw [hos]; exact Nat.zero_le _) hs
    have := hk.simpleFinish k1 k2 hx
    rw [← (h5 s x (full_monotone n) hs hx).1]
    exact this
  · intro hn
    cases hs : FaultySimple.session (Device.full n) os f ts dur now calls with
    | error e => exact absurd (hno _ _ (h6 e hs)) (by omega)
    | ok s =>
      cases hx : FaultySimple.finish s with
      | error e => exact absurd (hno _ _ (h7 s e hs hx)) (by omega)
      | ok x => exact ⟨s, x, rfl, hx⟩

/-- A byte of a stream after `write`. -/
theorem OStream.write_get (os : OStream) (l : List Byte) (hl : l ≠ []) (j : Nat) :
    (j < os.pos → (os.write l).data[j]? = some (os.data[j]?.getD 0)) ∧
    (os.pos ≤ j → j < os.pos + l.length → (os.write l).data[j]? = l[j - os.pos]?) ∧
    (os.pos + l.length ≤ j → (os.write l).data[j]? = os.data[j]?) := by
  unfold OStream.write
  rw [if_neg hl]
  dsimp only
  have hlen : ((os.data ++ List.replicate (os.pos - os.data.length) (0 : Byte)).take os.pos).length = os.pos := by
    simp only [List.length_take, List.length_append, List.length_replicate]; omega
  refine ⟨fun h => ?_, fun h1 h2 => ?_, fun h => ?_⟩
  · rw [List.append_assoc, List.getElem?_append_left (by omega), List.getElem?_take, if_pos h]
    by_cases hj : j < os.data.length
    · rw [List.getElem?_append_left hj, List.getElem?_eq_getElem hj]; rfl
    · rw [List.getElem?_append_right (by omega), List.getElem?_replicate, if_pos (by omega), List.getElem?_eq_none (by omega)]; rfl
  · rw [List.append_assoc, List.getElem?_append_right (by omega), hlen, List.getElem?_append_left (by omega)]
  · rw [List.getElem?_append_right (by rw [List.length_append, hlen]; exact h), List.length_append, hlen, List.getElem?_drop]
    congr 1; omega

/-- **C69** On other devices there is no such guarantee: whatever a device refused while samples were added, the program ends without an
exception when the device accepts what comes afterwards.  The header of `mdat` is then the one of the complete file; in the place of the
samples is what the device stored there, or zero bytes where it stored nothing. -/
theorem C69_simple_silent (os : OStream) (hos : os.data = []) (f : Ftyp) (ts : BitVec 32) (dur now : BitVec 64) (calls : List Call)
    (hf : f.compatible_brands.length < 2 ^ 32) :
    ∃ s0 es, SimpleWriter.session os f ts dur now calls = .ok s0 ∧ Spec.Expands [] calls es ∧
      (Tree.totalList (Spec.simpleFile f (Spec.mdat es) (SimpleWriter.moovOf s0)) < 2 ^ 64 →
        ∃ w, SimpleWriter.finish s0 = .ok w ∧
        ∀ dev s, FaultySimple.session dev os f ts dur now calls = .ok s →
          (∀ t p, s.writer.s.tries ≤ t → dev.put t p = true ∧ dev.seek t p = true) →
          ∃ x, FaultySimple.finish s = .ok x ∧
            ∀ H, H = (Spec.leaf "ftyp" (.ftyp f)).encode.length →
              (∀ j, H ≤ j → j < H + 16 → x.s.os.data[j]? = w.os.data[j]?) ∧
              ∀ j, H + 16 ≤ j → j < H + 16 + (Spec.mdat es).length → x.s.os.data[j]? = some (s.writer.s.os.data[j]?.getD 0)) := by
  obtain ⟨w1, s0, es, -, -, -, hses, he1, -, -, hP, hmoov⟩ := simple_any os hos f ts dur now calls hf
  refine ⟨s0, es, hses, he1, ?_⟩
  intro hfit
  rw [hmoov, simpleFile_total] at hfit
  obtain ⟨w, hw, hfile⟩ := SimpleWriter.finish_eq hP hfit
  refine ⟨w, hw, ?_⟩
  intro dev s hs ha
  have hE := good_encode_length (ftypTree_good f)
  rcases FaultySimple.session_cases dev os f ts dur now calls hf with ⟨e, he, -⟩ | ⟨s', s0', h1, h2, hq, ht⟩
  · rw [hs] at he; cases he
  rw [hs] at h1; cases h1
  rw [hses] at h2; cases h2
  rcases FaultySimple.finish_cases hq ht hP hfit with ⟨e, -, t, ht, hF⟩ | ⟨x, s1, h1, h2, h3, -⟩
  · rcases hF with ⟨p, -, hp⟩ | ⟨p, hp⟩
    · rw [(ha t p ht).1] at hp; cases hp
    · rw [(ha t p ht).2] at hp; cases hp
  refine ⟨x, h1, ?_⟩
  intro H hH
  rw [show (Spec.leaf "ftyp" (.ftyp f)) = ftypTree f from rfl, hE] at hH
  have c1 : Clean s.writer.s (ftypTree f).total (gapBytes (Spec.mdat es)) s1 := by
    rcases h2.2.2 with h | ⟨-, t, p, h, -, -, hp⟩
    · exact h
    · rw [(ha t p h).1] at hp; cases hp
  have c2 := h3.2.2
  generalize hM : (moovTree { newMvhd now ts dur 1 with next_track_id := s0.writer.next_track_id } (s.tracks.map (·.finalize))) = M at c2
  have c2 : Clean s1 ((ftypTree f).total + 16 + (Spec.mdat es).length) M.encode x.s := by
    rcases c2 with h | ⟨-, t, p, h, -, -, hp⟩
    · exact h
    · have := h2.2.1
      rw [(ha t p (by omega)).1] at hp; cases hp
  have hMn : M.encode ≠ [] := by
    intro h0
    have := good_encode_length (t := M) (by rw [← hM]; exact moovTree_good _ _)
    rw [h0] at this
    have h8 := Tree.headerSize_cases M.inner
    rw [Tree.total, List.length_nil] at this
    omega
  have hgn : gapBytes (Spec.mdat es) ≠ [] := by
    intro h0
    have := gapBytes_length (Spec.mdat es)
    rw [h0] at this; cases this
  have hget : ∀ j, j < (ftypTree f).total + 16 + (Spec.mdat es).length → x.s.os.data[j]? = some (s1.os.data[j]?.getD 0) := by
    intro j hj
    rw [c2.1]
    exact (OStream.write_get (s1.os.seekp _) M.encode hMn j).1 hj
  refine ⟨fun j hj1 hj2 => ?_, fun j hj1 hj2 => ?_⟩
  · rw [hget j (by omega), c1.1]
    have := (OStream.write_get (s.writer.s.os.seekp (ftypTree f).total) (gapBytes (Spec.mdat es)) hgn j).2.1 (by rw [← hH]; exact hj1)
      (by rw [gapBytes_length, ← hH]; exact hj2)
    rw [this, hfile, SimpleWriter.encodeList_append, headBoxes_gap, List.append_assoc, List.append_assoc]
    rw [List.getElem?_append_right (by omega), List.getElem?_append_left (by rw [gapBytes_length]; omega), hE]
    rw [show (s.writer.s.os.seekp (ftypTree f).total).pos = (ftypTree f).total from rfl,
      List.getElem?_eq_getElem (by rw [gapBytes_length]; omega)]
    rfl
  · rw [hget j (by omega), c1.1, (OStream.write_get (s.writer.s.os.seekp (ftypTree f).total) _ hgn j).2.2
      (by rw [gapBytes_length, ← hH]; exact hj1)]
    rfl

/-! ### FaststartWriter -/

theorem KeptBy.faststartSession {dev : Device} {P : FStream → Prop} (h : KeptBy dev P) {os : OStream} {f : Ftyp} {ts : BitVec 32}
    {dur now : BitVec 64} {calls : List Call} {s : Session FaultyFaststart}
    (hs : P { os }) (hw : FaultyFaststart.session dev os f ts dur now calls = .ok s) : P s.writer.s := by
  unfold FaultyFaststart.session FaultyFaststart.writeFtypBox at hw
  rw [show (FaultyFaststart.new dev os f ts dur now).w.ftyp = f from rfl,
    show (FaultyFaststart.new dev os f ts dur now).s = { os } from rfl, show (FaultyFaststart.new dev os f ts dur now).dev = dev from rfl] at hw
  cases hr : writeFtypF dev f { os } with
  | error e => rw [hr] at hw; cases hw
  | ok r =>
    obtain ⟨n, s'⟩ := r
    rw [hr] at hw
    dsimp only at hw
    have hp := h.writeFtyp hs hr
    cases hw
    have key := (FaultyFaststart.sim dev s').calls calls
        (s := ⟨[], (FaultyFaststart.mk dev { FaststartWriter.new os f ts dur now with ftyp_size := some n } s')⟩)
        (s' := ⟨[], (FaultyFaststart.mk dev { FaststartWriter.new os f ts dur now with ftyp_size := some n } s').members⟩)
        ⟨rfl, rfl, rfl⟩ ⟨rfl, fun i t t' h => by simp at h⟩
    have hk : ((Session.mk [] (FaultyFaststart.mk dev { FaststartWriter.new os f ts dur now with ftyp_size := some n } s')).calls
      calls).writer.s = s' := key.1.2.1
    show P ((Session.mk [] (FaultyFaststart.mk dev { FaststartWriter.new os f ts dur now with ftyp_size := some n } s')).calls
      calls).writer.s
    rw [hk]
    exact hp

/-- The part of the proof that is common to the theorems below. -/
theorem faststart_faulty (os : OStream) (hos : os.data = []) (f : Ftyp) (ts : BitVec 32) (dur now : BitVec 64) (calls : List Call)
    (hf : f.compatible_brands.length < 2 ^ 32) :
    ∃ s0 es, FaststartWriter.session os f ts dur now calls = .ok s0 ∧ Spec.Expands [] calls es ∧
      (FaststartWriter.sizeBound s0 f (Spec.mdat es) < 2 ^ 63 →
       ∃ w moov, FaststartWriter.finish s0 = .ok w ∧ w.os.data = Tree.encodeList (Spec.faststartFile f (Spec.mdat es) moov) ∧
        (moov.All Good ∧ Tree.totalList (Spec.faststartFile f (Spec.mdat es) moov) ≤ FaststartWriter.sizeBound s0 f (Spec.mdat es)) ∧
        ∀ H, H = (Tree.encodeList [Spec.leaf "ftyp" (.ftyp f), moov]).length →
        ∀ dev, dev.Monotone →
          (∀ e, FaultyFaststart.session dev os f ts dur now calls = .error e → Fails dev { os } H) ∧
          ∀ s, FaultyFaststart.session dev os f ts dur now calls = .ok s →
            (∀ e, FaultyFaststart.finish s = .error e → Fails dev s.writer.s H) ∧
            ∀ x, FaultyFaststart.finish s = .ok x →
              (∀ P, KeptBy dev P → P s.writer.s → ∃ s2, s2.os.data.length = H ∧ P s2 ∧ P x.s) ∧
              ((x.s.os.data = w.os.data ∧ x.s.log = storesAt 0 w.os.data) ∨
                ∃ k, H ≤ k ∧ k < w.os.data.length ∧ x.s.os.data = w.os.data.take k ∧ ∃ t, dev.put t k = false)) := by
  obtain ⟨w1, s0, es, -, hinv, -, hses, he1, he2, he3, hP⟩ := faststart_any os hos f ts dur now calls hf
  refine ⟨s0, es, hses, he1, ?_⟩
  intro hfit
  obtain ⟨-, hB, hF, h64, hL⟩ := faststart_fit hinv he2 hfit
  have hE := good_encode_length (ftypTree_good f)
  obtain ⟨w, S, hw, hdata, hS, hS2, happ⟩ := FaststartWriter.finish_append hP hB hF h64 hL
  generalize hM : moovTree s0.writer.mvhd ((FaststartWriter.finals s0.tracks).map (·.shift S)) = M at hdata happ
  have hMe : M.encode.length = M.total := by rw [← hM]; exact good_encode_length (moovTree_good _ _)
  refine ⟨w, M, hw, hdata, ⟨by rw [← hM]; exact moovTree_good _ _, ?_⟩, ?_⟩
  · unfold FaststartWriter.sizeBound
    rw [faststartFile_total, faststartFile_total, moovAt_eq, ← hM]
    have := moovSize_max (m := s0.writer.mvhd) hB (by omega : (Spec.mdat es).length + S < 2 ^ 64) hL
    unfold moovSize at this
    omega
  intro H hH dev hm
  have hH : H = (ftypTree f).total + M.total := by
    rw [hH]
    have : (Spec.leaf "ftyp" (.ftyp f)) = ftypTree f := rfl
    simp [Tree.encodeList, this, hE, hMe]
  refine ⟨?_, ?_⟩
  · intro e he
    rcases FaultyFaststart.session_cases dev hm os f ts dur now calls hf with ⟨e', -, hF⟩ | ⟨s', s0', h1, -⟩
    · exact hF.mono (Nat.le_refl _) (by omega)
    · rw [he] at h1; cases h1
  · intro s hs
    rcases FaultyFaststart.session_cases dev hm os f ts dur now calls hf with ⟨e, he, -⟩ | ⟨s', s0', h1, h2, h3, h4, h5, h6, -, hlog⟩
    · rw [hs] at he; cases he
    rw [hs] at h1; cases h1
    rw [hses] at h2; cases h2
    have key := FaultyFaststart.finish_cases hm h3 h4 h5 h6 hP hB hF h64 hL hM hdata hS hS2 happ
    rw [← hH] at key
    refine ⟨?_, ?_⟩
    · intro e he
      rcases key with ⟨e', -, hF⟩ | ⟨x, s2, h1, -⟩
      · exact hF
      · rw [he] at h1; cases h1
    · intro x hx
      rcases key with ⟨e', he', -⟩ | ⟨x', s2, h1, h7, h8, h9⟩
      · rw [hx] at he'; cases he'
      rw [hx] at h1; cases h1
      refine ⟨fun P hP hp => ⟨s2, h7, h8 P hP hp⟩, ?_⟩
      rcases h9 with ⟨h9, h10⟩ | ⟨k, a, b, c, t, -, d⟩
      · refine .inl ⟨h9, ?_⟩
        have hm := mdat_encode (Spec.mdat es) [fourcc "mdat"]
        rw [h10, hlog, hdata, ← hE]
        unfold Spec.faststartFile
        simp only [Tree.encodeList, Spec.leaf, hm, List.append_nil]
        have e := storesAt_append (ftypTree f).encode (M.encode ++ (mdatHeader (Spec.mdat es) ++ Spec.mdat es)) 0
        rw [Nat.zero_add] at e
        exact e.symm
      · exact .inr ⟨k, a, b, c, t, d⟩

/-- **C69** `FaststartWriter` on such a device: when a program ends without an exception, the beginning of its file, with `ftyp` and
`moov`, is complete, but the file may be cut off anywhere behind them. -/
theorem C69_faststart_prefix (os : OStream) (hos : os.data = []) (f : Ftyp) (ts : BitVec 32) (dur now : BitVec 64) (calls : List Call)
    (hf : f.compatible_brands.length < 2 ^ 32) :
    ∃ s0 es, FaststartWriter.session os f ts dur now calls = .ok s0 ∧ Spec.Expands [] calls es ∧
      (FaststartWriter.sizeBound s0 f (Spec.mdat es) < 2 ^ 63 →
       ∃ w moov, FaststartWriter.finish s0 = .ok w ∧ w.os.data = Tree.encodeList (Spec.faststartFile f (Spec.mdat es) moov) ∧
        ∀ dev s x, dev.Monotone → FaultyFaststart.session dev os f ts dur now calls = .ok s → FaultyFaststart.finish s = .ok x →
          ∃ k, (Tree.encodeList [Spec.leaf "ftyp" (.ftyp f), moov]).length ≤ k ∧ x.s.os.data = w.os.data.take k) := by
  obtain ⟨s0, es, h1, h2, h3⟩ := faststart_faulty os hos f ts dur now calls hf
  refine ⟨s0, es, h1, h2, fun hfit => ?_⟩
  obtain ⟨w, moov, hw, hd, -, h4⟩ := h3 hfit
  refine ⟨w, moov, hw, hd, fun dev s x hm hs hx => ?_⟩
  rcases ((((h4 _ rfl) dev hm).2 s hs).2 x hx).2 with ⟨h, -⟩ | ⟨k, h5, -, h6, -⟩
  · refine ⟨w.os.data.length, ?_, by rw [List.take_length]; exact h⟩
    rw [hd]
    unfold Spec.faststartFile
    simp [Tree.encodeList]
  · exact ⟨k, h5, h6⟩

/-- **C69** In particular on a disk with room for `n` bytes: the program ends without an exception as soon as `ftyp` and `moov` fit, and
what is then on the disk are the first `n` bytes of the file. -/
theorem C69_faststart_full_disk (os : OStream) (hos : os.data = []) (f : Ftyp) (ts : BitVec 32) (dur now : BitVec 64)
    (calls : List Call) (hf : f.compatible_brands.length < 2 ^ 32) :
    ∃ s0 es, FaststartWriter.session os f ts dur now calls = .ok s0 ∧ Spec.Expands [] calls es ∧
      (FaststartWriter.sizeBound s0 f (Spec.mdat es) < 2 ^ 63 →
       ∃ w moov, FaststartWriter.finish s0 = .ok w ∧ w.os.data = Tree.encodeList (Spec.faststartFile f (Spec.mdat es) moov) ∧
        ∀ n,
          ((∃ s x, FaultyFaststart.session (Device.full n) os f ts dur now calls = .ok s ∧ FaultyFaststart.finish s = .ok x) ↔
            (Tree.encodeList [Spec.leaf "ftyp" (.ftyp f), moov]).length ≤ n) ∧
          ∀ s x, FaultyFaststart.session (Device.full n) os f ts dur now calls = .ok s → FaultyFaststart.finish s = .ok x →
            x.s.os.data = w.os.data.take n) := by
  obtain ⟨s0, es, h1, h2, h3⟩ := faststart_faulty os hos f ts dur now calls hf
  refine ⟨s0, es, h1, h2, fun hfit => ?_⟩
  obtain ⟨w, moov, hw, hd, -, h4⟩ := h3 hfit
  refine ⟨w, moov, hw, hd, fun n => ?_⟩
  generalize hH : (Tree.encodeList [Spec.leaf "ftyp" (.ftyp f), moov]).length = H at h4 ⊢
  obtain ⟨h5, h6⟩ := h4 H rfl (Device.full n) (full_monotone n)
  have hno : ∀ s N, Fails (Device.full n) s N → n < N := by
    intro s N hF
    obtain ⟨t, -, ⟨p, hp, h⟩ | ⟨p, h⟩⟩ := hF
    · simp only [Device.full, decide_eq_false_iff_not] at h; omega
    · cases h
  have hk := full_kept n
  have hinit : (FStream.mk os true 0 [] []).os.data.length ≤ n := by rw [hos]; exact Nat.zero_le _
  refine ⟨⟨?_, ?_⟩, ?_⟩
  · rintro ⟨s, x, hs, hx⟩
    obtain ⟨s2, k1, k2, -⟩ := (((h6 s hs).2 x hx).1) _ hk (hk.faststartSession hinit hs)
    omega
  · intro hn
    cases hs : FaultyFaststart.session (Device.full n) os f ts dur now calls with
    | error e => exact absurd (hno _ _ (h5 e hs)) (by omega)
    | ok s =>
      cases hx : FaultyFaststart.finish s with
      | error e => exact absurd (hno _ _ ((h6 s hs).1 e hx)) (by omega)
      | ok x => exact ⟨s, x, rfl, hx⟩
  · intro s x hs hx
    obtain ⟨k0, k1⟩ := (h6 s hs).2 x hx
    obtain ⟨s2, -, -, k3⟩ := k0 _ hk (hk.faststartSession hinit hs)
    rcases k1 with ⟨k1, -⟩ | ⟨k, -, k4, k5, t, k6⟩
    · rw [k1] at k3 ⊢
      rw [List.take_of_length_le k3]
    · rw [k5] at k3 ⊢
      rw [List.length_take] at k3
      simp only [Device.full, decide_eq_false_iff_not] at k6
      rw [show k = n by omega]

/-- **C69** A read error on the intermediate file: the loop of `copyMdatData` looks at the end-of-file indicator only, so that it runs
forever when reads fail from some round on before the end of the file is reached. -/
theorem C69_copy_never_ends (dev : Device) (reads : Nat → Bool) (f : CFile) (s : FStream) (k : Nat) (hg : s.good = true)
    (hk : k * COPY_MDAT_DATA_BUFFER_SIZE ≤ f.content.length) (hr : ∀ r, reads r = decide (r < k)) :
    ∀ n, FaultyFaststart.copyLoop dev reads n 0 f.rewind s = none := by
  have key : ∀ n round (f : CFile) (s : FStream), s.good = true → f.eof = false →
      f.pos + (k - round) * COPY_MDAT_DATA_BUFFER_SIZE ≤ f.content.length →
      FaultyFaststart.copyLoop dev reads n round f s = none := by
    generalize hK : COPY_MDAT_DATA_BUFFER_SIZE = K
    intro n
    induction n with
    | zero => intros; rfl
    | succ n ih =>
      intro round f s hg he hp
      rw [FaultyFaststart.copyLoop, if_neg (by rw [he]; decide), hr]
      by_cases hlt : round < k
      · have hsub : k - round = (k - (round + 1)) + 1 := by omega
        rw [hsub, Nat.add_one_mul] at hp
        have hlen : (slice f.content f.pos K).length = K := by simp [slice]; omega
        simp only [hlt, decide_true, if_true, CFile.fread, hK, hlen]
        rw [if_pos (by rw [FStream.copyOut_good]; exact hg)]
        exact ih _ _ _ (by rw [FStream.copyOut_good]; exact hg) (by simp [he]) (by dsimp only; omega)
      · simp only [hlt, decide_false, Bool.false_eq_true, if_false, FStream.copyOut]
        rw [if_pos hg]
        refine ih _ _ _ hg he ?_
        rw [show k - round = 0 by omega] at hp
        rw [show k - (round + 1) = 0 by omega]
        exact hp
  intro n
  exact key n 0 f.rewind s hg rfl (by show 0 + _ ≤ f.content.length; rw [Nat.zero_add]; exact hk)

end Mp4
