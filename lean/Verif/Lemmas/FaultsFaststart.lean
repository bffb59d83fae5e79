import Verif.Lemmas.FaultsKept
import Verif.Props.Faststart

/-! # FaststartWriter on a device that can fail -/

namespace Mp4

/-- What all calls keep: nothing is written to the stream. -/
def FaultyFaststart.sim (dev : Device) (f : FStream) : Sim FaultyFaststart FaststartWriter where
  Q x w := x.dev = dev ∧ x.s = f ∧ x.members = w
  T _ _ t t' := t = t'
  codec h := by rw [h]
  add {x w t t'} hq ht ts d k := by
    obtain ⟨h1, h2, h3⟩ := hq
    subst ht
    subst h3
    exact ⟨⟨h1, h2, rfl⟩, rfl⟩
  other _ h _ := h
  id {x w} hq := by
    obtain ⟨h1, h2, h3⟩ := hq
    subst h3
    exact ⟨h1, h2, rfl⟩
  idT _ h := h
  new _ _ := rfl
  configure h c := by rw [h]
  terminate h := by rw [h]
  mediaTime h m := by rw [h]

/-- The program up to the last call on its tracks. -/
theorem FaultyFaststart.session_cases (dev : Device) (hm : dev.Monotone) (os : OStream) (f : Ftyp) (ts : BitVec 32) (dur now : BitVec 64)
    (calls : List Call) (hf : f.compatible_brands.length < 2 ^ 32) :
    (∃ e, FaultyFaststart.session dev os f ts dur now calls = .error e ∧ Fails dev { os } ((ftypTree f).total)) ∨
    ∃ s s0, FaultyFaststart.session dev os f ts dur now calls = .ok s ∧ FaststartWriter.session os f ts dur now calls = .ok s0 ∧
      s.writer.dev = dev ∧ s.writer.s.good = true ∧ s.writer.members = s0.writer ∧ s.tracks = s0.tracks ∧
      s.writer.s.refused = [] ∧ s.writer.s.log = storesAt 0 (ftypTree f).encode := by
  have hft := ftyp_small f hf
  unfold FaultyFaststart.session FaststartWriter.session FaultyFaststart.writeFtypBox FaststartWriter.writeFtypBox
  rw [show (FaststartWriter.new os f ts dur now).ftyp = f from rfl, show (FaststartWriter.new os f ts dur now).os = os from rfl,
    writeFtyp_eq f os (by omega), show (FaultyFaststart.new dev os f ts dur now).w.ftyp = f from rfl,
    show (FaultyFaststart.new dev os f ts dur now).s = { os } from rfl, show (FaultyFaststart.new dev os f ts dur now).dev = dev from rfl]
  dsimp only
  rcases writeFtypF_cases dev f { os } rfl (by omega) with ⟨e, he, hF⟩ | ⟨s', h1, h2, h3⟩
  · left
    rw [he]
    exact ⟨e, rfl, hF⟩
  · right
    rw [h1]
    dsimp only
    have hc := h3 hm
    have key := (FaultyFaststart.sim dev s').calls calls (s := ⟨[], (FaultyFaststart.mk dev
        { FaststartWriter.new os f ts dur now with ftyp_size := some (ftypTree f).total } s')⟩)
        (s' := ⟨[], { FaststartWriter.new os f ts dur now with
          ftyp_size := some (ftypTree f).total
          os := (os.seekp 0).write (ftypTree f).encode }⟩)
        ⟨rfl, rfl, by unfold FaultyFaststart.members; dsimp only; rw [hc.1]⟩ ⟨rfl, fun i t t' h => by simp at h⟩
    refine ⟨_, _, rfl, rfl, key.1.1, (congrArg FStream.good key.1.2.1).trans h2.1, key.1.2.2, ?_,
      (congrArg FStream.refused key.1.2.1).trans hc.2.1, (congrArg FStream.log key.1.2.1).trans hc.2.2⟩
    apply List.ext_getElem key.2.1
    intro i h1 h2
    exact key.2.2 i _ _ (List.getElem?_eq_getElem h1) (List.getElem?_eq_getElem h2)

/-! ### Copying to a monotone device -/

/-- `s'` comes from `s` by copying the bytes `l`, in one or several pieces. -/
def Copied (dev : Device) (s : FStream) (l : List Byte) (s' : FStream) : Prop :=
  s'.good = true ∧ s.tries ≤ s'.tries ∧
  ((s'.os = s.os.write l ∧ s'.log = s.log ++ storesAt s.os.pos l) ∨ ∃ k, k < l.length ∧ s'.os = s.os.write (l.take k) ∧ ∃ t, s.tries ≤ t ∧ t < s'.tries ∧ dev.put t (s.os.pos + k) = false)

theorem Copied.append {dev : Device} (hm : dev.Monotone) {s s' : FStream} {l : List Byte} (h : Copied dev s l s') (d : List Byte) :
    Copied dev s (l ++ d) (s'.copyOut dev d) := by
  obtain ⟨h1, h2, h3⟩ := h
  have g2 := (copyOut_grow dev d s').2.1
  refine ⟨by rw [FStream.copyOut_good]; exact h1, by omega, ?_⟩
  rcases h3 with ⟨h3, hlog⟩ | ⟨k, hk, h3, t, h4, h5, h6⟩
  · rcases FStream.copyOut_cases dev d s' with hc | ⟨k, hk, hc, hp⟩
    · left
      rw [hc]; simp only [FStream.stored]
      exact ⟨by rw [h3, OStream.write_append], by rw [hlog, h3, OStream.write_pos, storesAt_append, List.append_assoc]⟩
    · right
      refine ⟨l.length + k, by rw [List.length_append]; omega, ?_, s'.tries + k, Nat.le_trans h2 (Nat.le_add_right _ _), ?_, ?_⟩
      · rw [hc]; simp only [FStream.stopped]
        rw [h3, List.take_append, List.take_of_length_le (Nat.le_add_right _ _), Nat.add_sub_cancel_left, OStream.write_append]
      · rw [hc]; simp only [FStream.stopped]; omega
      · rw [h3, OStream.write_pos] at hp
        rw [← Nat.add_assoc]; exact hp
  · right
    have hpos : s'.os.pos = s.os.pos + k := by rw [h3, OStream.write_pos, List.length_take]; omega
    refine ⟨k, by rw [List.length_append]; omega, ?_, t, h4, by omega, h6⟩
    rw [List.take_append_of_le_length (by omega), ← h3]
    rcases d with _ | ⟨b, d⟩
    · rfl
    · rw [FStream.copyOut, FStream.sputc, if_neg]
      rw [hpos, hm t _ s'.tries _ h6 (by omega) (Nat.le_refl _)]
      simp

theorem Copied.start (dev : Device) (s : FStream) (hg : s.good = true) : Copied dev s [] s :=
  ⟨hg, Nat.le_refl _, .inl ⟨(OStream.write_nil _).symm, (List.append_nil _).symm⟩⟩

/-- The loop of `copyMdatData`: it always ends normally. -/
theorem copyLoopF {dev : Device} (hm : dev.Monotone) (s0 : FStream) (n : Nat) : ∀ (r : Nat) (f : CFile) (l : List Byte) (s : FStream), f.eof = false →
    f.pos ≤ f.content.length → f.content.length - f.pos < n * COPY_MDAT_DATA_BUFFER_SIZE → Copied dev s0 l s →
    ∃ f' s', FaultyFaststart.copyLoop dev (fun _ => true) (n + 1) r f s = some (.ok (f', s')) ∧
      Copied dev s0 (l ++ f.content.drop f.pos) s' := by
  generalize hK0 : COPY_MDAT_DATA_BUFFER_SIZE = K
  have hK : 0 < K := by rw [← hK0]; decide
  induction n with
  | zero => intro r f l s _ _ h _; omega
  | succ n ih =>
    intro r f l s he hp hn hc
    rw [FaultyFaststart.copyLoop, if_neg (by rw [he]; decide)]
    simp only [if_true, CFile.fread, hK0]
    have hgot : (slice f.content f.pos K).length = min K (f.content.length - f.pos) := by
      simp [slice]
    have hg : (s.copyOut dev (slice f.content f.pos K)).good = true := by rw [FStream.copyOut_good]; exact hc.1
    rw [if_pos hg]
    have hc' := hc.append hm (slice f.content f.pos K)
    by_cases hlt : f.content.length - f.pos < K
    · have hdrop : slice f.content f.pos K = f.content.drop f.pos := by
        rw [slice, List.take_of_length_le (by simp; omega)]
      have heof : (f.eof || decide ((slice f.content f.pos K).length < K)) = true := by
        rw [hgot]; simp; right; omega
      rw [heof]
      refine ⟨⟨f.content, f.pos + (slice f.content f.pos K).length, true⟩, _, by rw [FaultyFaststart.copyLoop, if_pos rfl], ?_⟩
      rw [hdrop] at hc' ⊢
      exact hc'
    · have heof : (f.eof || decide ((slice f.content f.pos K).length < K)) = false := by
        rw [hgot, he]; simp; omega
      have hlen : (slice f.content f.pos K).length = K := by rw [hgot]; omega
      rw [heof, hlen]
      rw [Nat.succ_mul] at hn
      obtain ⟨f', s', h1, h2⟩ := ih (r + 1) ⟨f.content, f.pos + K, false⟩ _ _ rfl (by dsimp only; omega) (by dsimp only; omega) hc'
      refine ⟨f', s', h1, ?_⟩
      dsimp only at h2
      rw [List.append_assoc, slice, ← List.drop_drop, List.take_append_drop] at h2
      exact h2

/-- The header of `mdat` on a monotone device. -/
theorem mdatCopied {dev : Device} (hm : dev.Monotone) (L : List Byte) (o : Nat) (s : FStream) (hg : s.good = true)
    (hn : L.length + Spec.headerSize L.length < 2 ^ 64) :
    (∃ e h' s', BoxHeader.writeF dev ⟨o, L.length + Spec.headerSize L.length, Spec.headerSize L.length, fourcc "mdat", false⟩ s =
      (.error e, h', s') ∧ ∀ N, Fails dev s N) ∨
    ∃ n h' s', BoxHeader.writeF dev ⟨o, L.length + Spec.headerSize L.length, Spec.headerSize L.length, fourcc "mdat", false⟩ s =
      (.ok n, h', s') ∧ Copied dev { s with os := s.os.seekp o, tries := s.tries + 1 } (mdatHeader L) s' := by
  unfold BoxHeader.writeF
  dsimp only
  rcases seek_cases dev s o hg with hs | ⟨hs, hF⟩
  · right
    rw [hs, if_pos hg, header_bytes _ _ _ hn]
    exact ⟨_, _, _, rfl, (Copied.start dev { s with os := s.os.seekp o, tries := s.tries + 1 } hg).append hm (mdatHeader L)⟩
  · left
    rw [if_neg (by rw [hs]; simp)]
    exact ⟨_, _, _, rfl, hF⟩

theorem KeptBy.copyLoop {dev : Device} {P : FStream → Prop} (h : KeptBy dev P) (reads : Nat → Bool) : ∀ n r f s f' s', P s →
    FaultyFaststart.copyLoop dev reads n r f s = some (.ok (f', s')) → P s' := by
  intro n
  induction n with
  | zero => intro r f s f' s' _ hc; cases hc
  | succ n ih =>
    intro r f s f' s' hs hc
    rw [FaultyFaststart.copyLoop] at hc
    split at hc
    · cases hc; exact hs
    · split at hc
      dsimp only at hc
      split at hc
      · exact ih _ _ _ _ _ (h.copyOut _ _ hs) hc
      · cases hc

/-- The end of the program. -/
theorem FaultyFaststart.finish_cases {f : Ftyp} {ts : BitVec 32} {dur now : BitVec 64} {dev : Device} (hm : dev.Monotone)
    {s : Session FaultyFaststart} {s0 : Session FaststartWriter} {L : List Byte}
    (hdev : s.writer.dev = dev) (hgd : s.writer.s.good = true) (hmem : s.writer.members = s0.writer) (htr : s.tracks = s0.tracks)
    (h : FaststartWriter.Inv f ts dur now s0.writer L) (hB : ∀ t ∈ FaststartWriter.finals s0.tracks, OffsetsBelow L.length t)
    (hF : (ftypTree f).total < 2 ^ 63)
    (hfit : (ftypTree f).total + moovSize s0.writer.mvhd (FaststartWriter.finals s0.tracks) (2 ^ 32) + (L.length + Spec.headerSize L.length) < 2 ^ 64)
    (hL : L.length + 2 ^ 32 < 2 ^ 64) {w : FaststartWriter} {S : Nat} {moov : Tree}
    (hmv : moovTree s0.writer.mvhd ((FaststartWriter.finals s0.tracks).map (·.shift S)) = moov)
    (hdata : w.os.data = Tree.encodeList (Spec.faststartFile f L moov))
    (hS : S = (ftypTree f).total + moovSize s0.writer.mvhd (FaststartWriter.finals s0.tracks) S + Spec.headerSize L.length)
    (hS2 : L.length + S < 2 ^ 64)
    (happ : s0.writer.appendTrakAndUdtaBoxInfo s0.tracks = .ok ({ s0.writer with moov := some (moov.place (ftypTree f).total) },
      (FaststartWriter.finals s0.tracks).map (·.shift S))) :
    (∃ e, FaultyFaststart.finish s = .error e ∧ Fails dev s.writer.s ((ftypTree f).total + moov.total)) ∨
      ∃ x s2, FaultyFaststart.finish s = .ok x ∧ s2.os.data.length = (ftypTree f).total + moov.total ∧
        (∀ P, KeptBy dev P → P s.writer.s → P s2 ∧ P x.s) ∧
        ((x.s.os.data = w.os.data ∧ x.s.log = s.writer.s.log ++ storesAt (ftypTree f).total (moov.encode ++ (mdatHeader L ++ L))) ∨
          ∃ k, (ftypTree f).total + moov.total ≤ k ∧ k < w.os.data.length ∧
          x.s.os.data = w.os.data.take k ∧ ∃ t, s.writer.s.tries ≤ t ∧ dev.put t k = false) := by
  have hH := h.header (by omega)
  have hu : u64 L.length = L.length := Nat.mod_eq_of_lt (by omega)
  have hE := good_encode_length (ftypTree_good f)
  have hgood : moov.All Good := by rw [← hmv]; exact moovTree_good _ _
  have hends : moov.EndsInContent := by rw [← hmv]; exact moovTree_ends _ _
  have hME := good_encode_length hgood
  have hM : moovSize s0.writer.mvhd (FaststartWriter.finals s0.tracks) S = moov.total := by rw [← hmv]; rfl
  have hnext : setNextTrackID s0.writer.next_track_id (moov.place (ftypTree f).total) = moov.place (ftypTree f).total := by
    rw [← hmv, setNextTrackID_place]; rfl
  obtain ⟨h1, h2, h3, h4, h5, h6, h7, h8, h9⟩ := h
  have hos0 : s.writer.s.os = ⟨(ftypTree f).encode, (ftypTree f).total⟩ := by
    rw [← h1, ← hmem]; rfl
  unfold FaultyFaststart.finish
  rw [hmem, htr, happ]
  dsimp only
  unfold FaultyFaststart.writeMoovBox
  dsimp only
  rw [h5, hdev]
  simp only [initialised]
  rcases seek_cases dev s.writer.s (ftypTree f).total hgd with hs | ⟨hs, hF⟩
  rotate_left
  · left
    obtain ⟨e, he⟩ := FStream.check_error hs "FaststartWriter::writeFtypBox(): ostream::seekp() failed"
    rw [he]
    exact ⟨e, rfl, hF _⟩
  rw [FStream.check_ok (by rw [hs]; exact hgd), hs]
  dsimp only
  rw [hnext]
  rcases writeTreeF_cases (dev := dev) hgood (ftypTree f).total
    { s.writer.s with os := s.writer.s.os.seekp (ftypTree f).total, tries := s.writer.s.tries + 1 } (by rw [← hM]; omega) hgd with
    ⟨⟨e, he⟩, hF⟩ | ⟨t1, h10, h11, -, h12⟩
  · left
    rw [he]
    exact ⟨e, rfl, hF.mono (Nat.le_succ _) (by omega)⟩
  have hkt1 : ∀ P, KeptBy dev P → P s.writer.s → P t1 := by
    intro P hP hp
    have := hP.seek s.writer.s (ftypTree f).total hp
    rw [hs] at this
    exact hP.writeTree this h10
  have hc1 := (h12 hm hends).1
  have hos1 : t1.os = ⟨(ftypTree f).encode ++ moov.encode, (ftypTree f).total + moov.total⟩ := by
    rw [hc1]
    dsimp only
    rw [hos0]
    have := OStream.write_end (ftypTree f).encode moov.encode
    rw [List.length_append, hE, hME] at this
    exact this
  have htr1 : s.writer.s.tries + 1 ≤ t1.tries := h11.2.1
  rw [h10]
  dsimp only
  unfold FaultyFaststart.writeMdatHeader FaststartWriter.getMoovSize
  simp only [initialised]
  rw [place_getSize]
  dsimp only
  have hu1 : u64 ((ftypTree f).total + moov.total) = (ftypTree f).total + moov.total := Nat.mod_eq_of_lt (by rw [← hM]; omega)
  have hg : ∀ (m : Option Tree), FaststartWriter.getMdatHeaderSize { s0.writer with ftyp_size := some (ftypTree f).total, moov := m } =
      Spec.headerSize L.length := fun _ => hH
  rw [hu1]
  rcases seek_cases dev t1 ((ftypTree f).total + moov.total) h11.1 with hs1 | ⟨hs1, hF⟩
  rotate_left
  · left
    obtain ⟨e, he⟩ := FStream.check_error hs1 "FaststartWriter::writeMdatHeader(): ostream::seekp() failed"
    rw [he]
    exact ⟨e, rfl, (hF _).mono (by omega) (Nat.le_refl _)⟩
  rw [FStream.check_ok (by rw [hs1]; exact h11.1), hs1]
  dsimp only
  rw [hg, h4, hu]
  have hu2 : u64 (L.length + Spec.headerSize L.length) = L.length + Spec.headerSize L.length := Nat.mod_eq_of_lt (by omega)
  rw [hu2]
  rcases mdatCopied hm L ((ftypTree f).total + moov.total)
    { t1 with os := t1.os.seekp ((ftypTree f).total + moov.total), tries := t1.tries + 1 } h11.1 (by omega) with
    ⟨e, h', t2, h13, hF⟩ | ⟨n, h', t2, h13, h14⟩
  · left
    rw [h13]
    exact ⟨e, rfl, (hF _).mono (by dsimp only; omega) (Nat.le_refl _)⟩
  right
  rw [h13]
  dsimp only
  rw [FStream.check_ok h14.1]
  dsimp only
  unfold FaultyFaststart.copyMdatData
  dsimp only
  have hK : 0 < COPY_MDAT_DATA_BUFFER_SIZE := by decide
  obtain ⟨f', t3, h15, h16⟩ := copyLoopF hm _ (s0.writer.mdat.content.length / COPY_MDAT_DATA_BUFFER_SIZE + 1) 0 s0.writer.mdat.rewind
    (mdatHeader L) t2 rfl (Nat.zero_le _) (by
      show s0.writer.mdat.content.length - 0 < _
      rw [Nat.mul_comm]
      exact Nat.lt_mul_div_succ _ hK) h14
  rw [h15]
  refine ⟨_, t1, rfl, by rw [hos1]; simp [hE, hME], ?_, ?_⟩
  · intro P hP hp
    have p1 := hkt1 P hP hp
    refine ⟨p1, ?_⟩
    have p2 := hP.seek t1 ((ftypTree f).total + moov.total) p1
    rw [hs1] at p2
    have p3 := hP.header ⟨(ftypTree f).total + moov.total, L.length + Spec.headerSize L.length, Spec.headerSize L.length, fourcc "mdat",
      false⟩ _ p2
    rw [h13] at p3
    exact hP.copyLoop _ _ _ _ _ _ _ p3 h15
  · dsimp only
    have hw : w.os.data = (ftypTree f).encode ++ moov.encode ++ (mdatHeader L ++ L) := by
      rw [hdata]
      unfold Spec.faststartFile
      have hm := mdat_encode L [fourcc "mdat"]
      simp only [Tree.encodeList, Spec.leaf, hm, ftypTree, List.append_nil, List.append_assoc]
    have hl : mdatHeader L ++ List.drop s0.writer.mdat.rewind.pos s0.writer.mdat.rewind.content = mdatHeader L ++ L := by
      show mdatHeader L ++ List.drop 0 s0.writer.mdat.content = _
      rw [h2]; rfl
    rw [hl] at h16
    obtain ⟨-, -, h16⟩ := h16
    have hlen : ((ftypTree f).encode ++ moov.encode).length = (ftypTree f).total + moov.total := by simp [hE, hME]
    have hend : ∀ l, ((OStream.mk ((ftypTree f).encode ++ moov.encode) ((ftypTree f).total + moov.total)).write l).data =
        (ftypTree f).encode ++ moov.encode ++ l := by
      intro l; rw [← hlen, OStream.write_end]
    have hseek : ((t1.os.seekp ((ftypTree f).total + moov.total)).seekp ((ftypTree f).total + moov.total)) =
        ⟨(ftypTree f).encode ++ moov.encode, (ftypTree f).total + moov.total⟩ := by rw [hos1]; rfl
    dsimp only at h16
    rw [hseek] at h16
    rcases h16 with ⟨h16, hlog⟩ | ⟨k, hk, h16, t, h17, -, h18⟩
    · left
      refine ⟨by rw [h16, hend, hw], ?_⟩
      rw [hlog, (h12 hm hends).2.2, storesAt_append moov.encode, hME, List.append_assoc]
    · right
      refine ⟨(ftypTree f).total + moov.total + k, by omega, ?_, ?_, t, by omega, h18⟩
      · rw [hw, List.length_append, hlen]; omega
      · rw [h16, hend, hw, ← hlen, List.take_length_add_append]

end Mp4
