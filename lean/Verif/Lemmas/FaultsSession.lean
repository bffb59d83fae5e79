import Verif.Lemmas.FaultsSimple

/-! # Programs with SimpleWriter on a device that can fail -/

namespace Mp4

/-- The writers of a program on a device and of the same program on a device that accepts everything. -/
structure FaultySimple.Q (dev : Device) (x : FaultySimple) (w : SimpleWriter) : Prop where
  same : x.dev = dev
  good : x.s.good = true
  pos : x.s.os.pos ≤ w.os.pos
  rest : ∃ o, x.w = { w with os := o }
  clean : x.s.refused = [] → x.s.os = w.os
  lost : x.s.refused ≠ [] → ∃ t p, t < x.s.tries ∧ p < w.os.pos ∧ dev.put t p = false

/-- Tracks of such programs. -/
def FaultySimple.T (x : FaultySimple) (w : SimpleWriter) (t t' : Track) : Prop :=
  TrackLe (w.os.pos < 2 ^ 64) t t' ∧ (x.s.refused = [] → t = t')

theorem copyOut_grow (dev : Device) (l : List Byte) (s : FStream) :
    ((s.copyOut dev l).refused = [] → s.refused = []) ∧ s.tries ≤ (s.copyOut dev l).tries ∧
      (s.copyOut dev l).os.pos ≤ s.os.pos + l.length := by
  rcases FStream.copyOut_cases dev l s with h | ⟨k, hk, h, -⟩ <;> rw [h]
  · exact ⟨id, by simp [FStream.stored], by simp [FStream.stored]⟩
  · refine ⟨by simp [FStream.stopped], by simp only [FStream.stopped]; omega, ?_⟩
    simp only [FStream.stopped, OStream.write_pos, List.length_take]
    omega

theorem FaultySimple.Q.add {dev : Device} {x : FaultySimple} {w : SimpleWriter} (h : Q dev x w) (d : List Byte) :
    Q dev (x.addMdatData d) (w.addMdatData d) := by
  obtain ⟨h1, h2, h3, h4, h5, h6⟩ := h
  obtain ⟨g1, g2, g3⟩ := copyOut_grow x.dev d x.s
  have hp : (w.addMdatData d).os.pos = w.os.pos + d.length := by
    show (w.os.write d).pos = _
    rw [OStream.write_pos]
  refine ⟨h1, ?_, ?_, ?_, ?_, ?_⟩
  · show (x.s.copyOut x.dev d).good = true
    rw [FStream.copyOut_good]; exact h2
  · rw [hp]
    show (x.s.copyOut x.dev d).os.pos ≤ _
    omega
  · obtain ⟨o, h4⟩ := h4
    refine ⟨o, ?_⟩
    show ({ x.w with mdat_data_size := u64 (x.w.mdat_data_size + d.length) } : SimpleWriter) = _
    rw [h4]
    rfl
  · intro hr
    have hr : (x.s.copyOut x.dev d).refused = [] := hr
    show (x.s.copyOut x.dev d).os = w.os.write d
    rcases FStream.copyOut_cases x.dev d x.s with h | ⟨k, hk, h, -⟩
    · rw [h]; simp only [FStream.stored]; rw [h5 (g1 hr)]
    · rw [h] at hr; simp [FStream.stopped] at hr
  · intro hr
    have hr : (x.s.copyOut x.dev d).refused ≠ [] := hr
    rw [hp]
    show ∃ t p, t < (x.s.copyOut x.dev d).tries ∧ _
    rcases FStream.copyOut_cases x.dev d x.s with h | ⟨k, hk, h, hk2⟩
    · have hr' : x.s.refused ≠ [] := by rw [h] at hr; exact hr
      obtain ⟨t, p, a, b, c⟩ := h6 hr'
      exact ⟨t, p, by omega, by omega, c⟩
    · rw [h]
      refine ⟨x.s.tries + k, x.s.os.pos + k, by simp only [FStream.stopped]; omega, by omega, ?_⟩
      rw [← h1]; exact hk2

theorem FaultySimple.T.other {dev : Device} {x : FaultySimple} {w : SimpleWriter} {t t' : Track} (h : T x w t t') (d : List Byte) :
    T (x.addMdatData d) (w.addMdatData d) t t' := by
  refine ⟨h.1.mono fun hb => ?_, fun hr => h.2 ((copyOut_grow x.dev d x.s).1 hr)⟩
  have hp : (w.addMdatData d).os.pos = w.os.pos + d.length := by
    show (w.os.write d).pos = _
    rw [OStream.write_pos]
  omega

/-- What all calls keep. -/
def FaultySimple.sim (dev : Device) : Sim FaultySimple SimpleWriter where
  Q := FaultySimple.Q dev
  T := FaultySimple.T
  codec h := by rw [h.1.1]
  add {x w t t'} hq ht ts d k := by
    have hb : (w.addMdatData d).os.pos < 2 ^ 64 → w.os.pos < 2 ^ 64 := by
      intro hb
      have : (w.addMdatData d).os.pos = w.os.pos + d.length := by
        show (w.os.write d).pos = _
        rw [OStream.write_pos]
      omega
    refine ⟨hq.add d, ?_, ?_⟩
    · obtain ⟨⟨h1, h2, h3⟩, -⟩ := ht
      generalize t'.chunk_infos = cs at h1 h2
      generalize t'.current_chunk_info = c at h1 h3
      subst h1
      refine ⟨?_, h2.mono hb, ?_⟩
      · rfl
      · refine ⟨?_, ?_, ?_⟩
        · simp only [Track.addMdatData]
          rw [h3.2.1]
          split <;> simp only [h3.1]
        · simp only [Track.addMdatData]
          rw [h3.2.1]
          split
          · exact h3.2.1
          · rfl
        · intro hw
          have hw' := hb hw
          simp only [Track.addMdatData]
          rw [h3.2.1]
          split
          · exact h3.2.2 hw'
          · have := hq.pos
            simp only [MdatWriter.tellCurrentMdatOffset, FaultySimple.tellCurrentMdatOffset, SimpleWriter.tellCurrentMdatOffset,
              BitVec.toNat_ofNat]
            rw [Nat.mod_eq_of_lt hw', Nat.mod_eq_of_lt (by omega)]
            exact this
    · intro hr
      have hr0 := (copyOut_grow x.dev d x.s).1 hr
      have e := ht.2 hr0
      subst e
      simp only [Track.addMdatData, MdatWriter.tellCurrentMdatOffset, FaultySimple.tellCurrentMdatOffset,
        SimpleWriter.tellCurrentMdatOffset]
      rw [hq.clean hr0]
  other hq ht d := FaultySimple.T.other (dev := dev) ht d
  id {x w} hq := by
    obtain ⟨h1, h2, h3, h4, h5, h6⟩ := hq
    refine ⟨h1, h2, h3, ?_, h5, h6⟩
    obtain ⟨o, h4⟩ := h4
    refine ⟨o, ?_⟩
    show ({ x.w with next_track_id := x.w.next_track_id + 1 } : SimpleWriter) = _
    rw [h4]
    rfl
  idT hq ht := ht
  new hq hn := ⟨.refl _ _, fun _ => rfl⟩
  configure {x w t t'} ht c := by
    obtain ⟨⟨h1, h2, h3⟩, h4⟩ := ht
    refine ⟨⟨?_, h2, h3⟩, fun hr => by rw [h4 hr]⟩
    generalize t'.chunk_infos = cs at h1 ⊢
    generalize t'.current_chunk_info = c at h1 ⊢
    rw [h1]
  terminate ht := ⟨ht.1.terminate, fun hr => by rw [ht.2 hr]⟩
  mediaTime {x w t t'} ht m := by
    obtain ⟨⟨h1, h2, h3⟩, h4⟩ := ht
    refine ⟨⟨?_, h2, h3⟩, fun hr => by rw [h4 hr]⟩
    show ({ t' with media_time := m } : Track) = _
    generalize t'.chunk_infos = cs at h1
    generalize t'.current_chunk_info = c at h1
    rw [h1]
    rfl

/-! ### ftyp -/

theorem writeFtypF_cases (dev : Device) (f : Ftyp) (s : FStream) (hg : s.good = true) (h : (ftypTree f).total < 2 ^ 64) :
    (∃ e, writeFtypF dev f s = .error e ∧ Fails dev s (ftypTree f).total) ∨
    ∃ s', writeFtypF dev f s = .ok ((ftypTree f).total, s') ∧ Wrote dev s 0 (ftypTree f).encode s' ∧
      (dev.Monotone → Clean s 0 (ftypTree f).encode s') := by
  have hE := good_encode_length (ftypTree_good f)
  unfold writeFtypF
  rw [show mkInfo (fourcc "ftyp") (.ftyp f) [] [] = ftypTree f from rfl, adjustTree_good (ftypTree_good f) (by omega)]
  dsimp only
  rcases writeTreeF_cases (dev := dev) (ftypTree_good f) 0 s h hg with ⟨⟨e, he⟩, hF⟩ | ⟨s', h1, h2, -, h4⟩
  · left
    rw [he]
    exact ⟨e, rfl, hF.mono (Nat.le_refl _) (by omega)⟩
  · right
    rw [h1]
    dsimp only
    rw [place_getSize]
    exact ⟨s', rfl, h2, fun hm => h4 hm (ftypTree_ends f)⟩

/-- The program up to the last call on its tracks, on a device and on one that accepts everything. -/
theorem FaultySimple.session_cases (dev : Device) (os : OStream) (f : Ftyp) (ts : BitVec 32) (dur now : BitVec 64)
    (calls : List Call) (hf : f.compatible_brands.length < 2 ^ 32) :
    (∃ e, FaultySimple.session dev os f ts dur now calls = .error e ∧ Fails dev { os } ((ftypTree f).total)) ∨
    ∃ s s0, FaultySimple.session dev os f ts dur now calls = .ok s ∧ SimpleWriter.session os f ts dur now calls = .ok s0 ∧
      FaultySimple.Q dev s.writer s0.writer ∧ (FaultySimple.sim dev).Tracks s.writer s0.writer s.tracks s0.tracks := by
  have hft := ftyp_small f hf
  have hE := good_encode_length (ftypTree_good f)
  unfold FaultySimple.session SimpleWriter.session FaultySimple.writeFtypBox SimpleWriter.writeFtypBox
  rw [show (SimpleWriter.new os f ts dur now).ftyp = f from rfl, show (SimpleWriter.new os f ts dur now).os = os from rfl,
    writeFtyp_eq f os (by omega), show (FaultySimple.new dev os f ts dur now).w.ftyp = f from rfl,
    show (FaultySimple.new dev os f ts dur now).s = { os } from rfl, show (FaultySimple.new dev os f ts dur now).dev = dev from rfl]
  dsimp only
  have hu : u64 ((ftypTree f).total + LARGE_HEADER_SIZE) = (ftypTree f).total + 16 := Nat.mod_eq_of_lt (by unfold LARGE_HEADER_SIZE; omega)
  rw [hu]
  rcases writeFtypF_cases dev f { os } rfl (by omega) with ⟨e, he, hF⟩ | ⟨s', h1, h2, -⟩
  · left
    rw [he]
    exact ⟨e, rfl, hF⟩
  · rw [h1]
    dsimp only
    rw [hu]
    rcases seek_cases dev s' ((ftypTree f).total + 16) h2.1 with hs | ⟨hs, hF⟩
    · right
      rw [FStream.check_ok (by rw [hs]; exact h2.1), hs]
      dsimp only
      have key := (FaultySimple.sim dev).calls calls (s := ⟨[], (FaultySimple.mk dev
        { SimpleWriter.new os f ts dur now with ftyp_size := some (ftypTree f).total }
        { s' with os := s'.os.seekp ((ftypTree f).total + 16), tries := s'.tries + 1 })⟩)
        (s' := ⟨[], { SimpleWriter.new os f ts dur now with
          ftyp_size := some (ftypTree f).total
          os := ((os.seekp 0).write (ftypTree f).encode).seekp ((ftypTree f).total + 16) }⟩)
        (by
          refine ⟨rfl, h2.1, Nat.le_refl _, ⟨os, rfl⟩, ?_, ?_⟩
          · intro hr
            dsimp only
            rcases h2.2.2 with hc | hc
            · rw [hc.1]
            · exact absurd hr hc.1
          · intro hr
            rcases h2.2.2 with hc | ⟨-, t, p, -, h3, h4, h5⟩
            · exact absurd hc.2.1 hr
            · exact ⟨t, p, by dsimp only; omega, by show p < (ftypTree f).total + 16; omega, h5⟩)
        ⟨rfl, fun i t t' h => by simp at h⟩
      exact ⟨_, _, rfl, rfl, key.1, key.2⟩
    · left
      obtain ⟨e, he⟩ := FStream.check_error hs "SimpleWriter::writeFtypBox(): ostream::seekp() failed"
      rw [he]
      refine ⟨e, rfl, (hF (ftypTree f).total).mono ?_ (Nat.le_refl _)⟩
      have := h2.2.1
      dsimp only at this ⊢
      omega

/-- The end of the program. -/
theorem FaultySimple.finish_cases {f : Ftyp} {m : Mvhd} {dev : Device} {s : Session FaultySimple} {s0 : Session SimpleWriter} {L : List Byte}
    (hq : FaultySimple.Q dev s.writer s0.writer) (ht : (FaultySimple.sim dev).Tracks s.writer s0.writer s.tracks s0.tracks)
    (h : SimpleWriter.Inv f m s0.writer L)
    (hlt : (ftypTree f).total + 16 + L.length + (moovTree m (s0.tracks.map (·.finalize))).total < 2 ^ 64) :
    (∃ e, FaultySimple.finish s = .error e ∧ Fails dev s.writer.s ((ftypTree f).total + 16 + L.length +
        (moovTree m (s0.tracks.map (·.finalize))).total)) ∨
    ∃ x s1, FaultySimple.finish s = .ok x ∧ Wrote dev s.writer.s (ftypTree f).total (gapBytes L) s1 ∧
      Wrote dev s1 ((ftypTree f).total + 16 + L.length)
        (moovTree { m with next_track_id := s0.writer.next_track_id } (s.tracks.map (·.finalize))).encode x.s ∧
      (dev.Monotone → ¬ Doomed dev s1 ((ftypTree f).total + 16 + L.length) ∧ Clean s1 ((ftypTree f).total + 16 + L.length)
        (moovTree { m with next_track_id := s0.writer.next_track_id } (s.tracks.map (·.finalize))).encode x.s) := by
  obtain ⟨h1, h2, h3, h4⟩ := h
  obtain ⟨o, hrest⟩ := hq.rest
  have hu : u64 L.length = L.length := Nat.mod_eq_of_lt (by omega)
  have hpos : s0.writer.os.pos < 2 ^ 64 := by rw [h1, OStream.write_pos]; dsimp only; omega
  -- the tables of the program on the device are not larger
  have hle : (moovTree m (s.tracks.map (·.finalize))).total ≤ (moovTree m (s0.tracks.map (·.finalize))).total := by
    apply Tree.Le.total
    refine ⟨Nat.le_refl _, Tree.Le.refl _, Tree.LeList.append ?_ (Tree.LeList.refl _)⟩
    have aux : ∀ (a b : List Track), a.length = b.length →
        (∀ (i : Nat) t t', a[i]? = some t → b[i]? = some t' → FaultySimple.T s.writer s0.writer t t') →
        Tree.LeList ((a.map (·.finalize)).map (·.trak [fourcc "moov"])) ((b.map (·.finalize)).map (·.trak [fourcc "moov"])) := by
      intro a
      induction a with
      | nil => intro b hl _; cases b with
        | nil => trivial
        | cons => simp at hl
      | cons t a ih =>
        intro b hl hT
        cases b with
        | nil => simp at hl
        | cons t' b =>
          refine ⟨(hT 0 t t' rfl rfl).1.trak hpos _, ih b (by simpa using hl) fun i u u' hu hu' => hT (i + 1) u u' ?_ ?_⟩
          · simpa using hu
          · simpa using hu'
    exact aux _ _ ht.1 ht.2
  have hw : (s.writer.members.appendTrakAndUdtaBoxInfo s.tracks).1 =
      { s.writer.members with moov := moovTree m (s.tracks.map (·.finalize)) } := by
    unfold SimpleWriter.appendTrakAndUdtaBoxInfo
    dsimp only
    rw [show s.writer.members.moov = newMoov m by show s.writer.w.moov = _; rw [hrest]; exact h4, append_newMoov]
  have hmd : s.writer.w.mdat_data_size = L.length := by rw [hrest]; show s0.writer.mdat_data_size = _; rw [h2, hu]
  have hfs : s.writer.w.ftyp_size = some (ftypTree f).total := by rw [hrest]; exact h3
  have hid : s.writer.w.next_track_id = s0.writer.next_track_id := by rw [hrest]
  have hdev := hq.same
  unfold FaultySimple.finish
  rw [hw]
  rcases FaultySimple.writeFreeF (x := { s.writer with w := { s.writer.members with moov := moovTree m (s.tracks.map (·.finalize)) } })
    (F := (ftypTree f).total) (L := L) hq.good hmd hfs (by omega) with ⟨e, he, hF⟩ | ⟨s1, he, hW⟩
  · left
    rw [he]
    refine ⟨e, rfl, ?_⟩
    rw [← hdev]
    exact hF.mono (Nat.le_refl _) (by omega)
  · rw [he]
    dsimp only
    unfold FaultySimple.writeMoovBox SimpleWriter.setOffsetAndSize
    dsimp only
    rw [show s.writer.members.ftyp_size = some (ftypTree f).total from hfs]
    simp only [initialised]
    have ho : u64 (u64 ((ftypTree f).total + LARGE_HEADER_SIZE) + s.writer.members.mdat_data_size) = (ftypTree f).total + 16 + L.length := by
      rw [show s.writer.members.mdat_data_size = L.length from hmd]
      unfold LARGE_HEADER_SIZE u64
      rw [Nat.mod_eq_of_lt (a := (ftypTree f).total + 16) (by omega)]
      exact Nat.mod_eq_of_lt (by omega)
    rw [ho, adjustTree_good (moovTree_good _ _) (by omega)]
    dsimp only
    rw [setNextTrackID_place, show s.writer.members.next_track_id = s0.writer.next_track_id from hid]
    dsimp only at hW
    rw [hdev] at hW
    rcases writeTreeF_cases (dev := s.writer.dev) (moovTree_good { m with next_track_id := s0.writer.next_track_id } (s.tracks.map (·.finalize)))
      ((ftypTree f).total + 16 + L.length) s1 (by rw [moovTree_total_id]; omega) hW.1 with ⟨⟨e, he⟩, hF⟩ | ⟨s2, h5, h6, h7, h8⟩
    · left
      rw [he]
      refine ⟨e, rfl, ?_⟩
      rw [hdev] at hF
      refine hF.mono hW.2.1 ?_
      rw [good_encode_length (moovTree_good _ _), moovTree_total_id]
      omega
    · right
      rw [h5]
      rw [hdev] at h6 h7 h8
      exact ⟨_, s1, rfl, hW, h6, fun hm => ⟨h7 hm (moovTree_has _ _), h8 hm (moovTree_ends _ _)⟩⟩

end Mp4
