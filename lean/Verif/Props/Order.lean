import Verif.Lemmas.Order

/-! # C81: the order of the calls on a writer -/

namespace Mp4

/-! ### SimpleWriter -/

namespace SimpleWriter

/-- What the calls made so far leave. -/
def Seen (h : List SimpleCall) (w : SimpleWriter) : Prop := (w.ftyp_size = none ↔ .writeFtypBox ∉ h) ∧ w.moov.All Writes

theorem Seen.other {h : List SimpleCall} {w w' : SimpleWriter} {c : SimpleCall} (hs : Seen h w) (hc : c ≠ .writeFtypBox)
    (h1 : w'.ftyp_size = w.ftyp_size) (h2 : w'.moov.All Writes) : Seen (h ++ [c]) w' := by
  refine ⟨?_, h2⟩
  rw [h1, hs.1]
  simp [hc.symm]

theorem writeFree_any {w : SimpleWriter} {F : Nat} (hF : w.ftyp_size = some F) :
    ∃ w', w.writeFreeBoxAndMdatHeader = .ok w' ∧ w'.ftyp_size = w.ftyp_size ∧ w'.moov = w.moov := by
  unfold writeFreeBoxAndMdatHeader
  simp only [hF, initialised]
  by_cases hc : w.mdat_data_size > UINT32_MAX - 8
  · rw [if_pos hc]
    exact ⟨_, rfl, rfl, rfl⟩
  · rw [if_neg hc]
    obtain ⟨t, h1, h2, h3⟩ := adjustTree_any (mkInfo (fourcc "free") (.opaq ⟨[]⟩) [] []) F
    obtain ⟨t', os', h4, h5, h6⟩ := writeTree_headers (w.os.seekp F)
      (writes_erase h2 (good_writes (leaf_good _ (.opaq ⟨[]⟩) trivial _))) h3
    obtain ⟨n, hn⟩ := getSize_headers (all_box h6)
    rw [h1]
    dsimp only
    rw [h4]
    dsimp only
    rw [hn]
    exact ⟨_, rfl, rfl, rfl⟩

theorem writeMoov_any {w : SimpleWriter} {F : Nat} (hF : w.ftyp_size = some F) (hw : w.moov.All Writes) :
    ∃ w', w.writeMoovBox = .ok w' ∧ w'.ftyp_size = w.ftyp_size ∧ w'.moov.All Writes := by
  unfold writeMoovBox setOffsetAndSize
  simp only [hF, initialised]
  obtain ⟨t, h1, h2, h3⟩ := adjustTree_any w.moov (u64 (u64 (F + LARGE_HEADER_SIZE) + w.mdat_data_size))
  rw [h1]
  dsimp only
  have hw' := setNextTrackID_writes w.next_track_id (writes_erase h2 hw)
  obtain ⟨t', os', h4, h5, h6⟩ := writeTree_headers w.os hw' ((setNextTrackID_headers _).mpr h3)
  rw [h4]
  exact ⟨_, rfl, rfl, writes_erase h5 hw'⟩

theorem step_seen {h : List SimpleCall} {w : SimpleWriter} (hs : Seen h w) (c : SimpleCall) :
    (Spec.tooEarlySimple h c ∧ ∃ what, w.step c = .error (.ub what)) ∨
    (¬ Spec.tooEarlySimple h c ∧ ∃ w', w.step c = .ok w' ∧ Seen (h ++ [c]) w') := by
  cases c with
  | writeFtypBox =>
    right
    obtain ⟨n, os, h1⟩ := writeFtyp_any w.ftyp w.os
    refine ⟨fun h => h, { w with ftyp_size := some n, os := os.seekp (u64 (n + LARGE_HEADER_SIZE)) }, ?_, ?_, hs.2⟩
    · show w.writeFtypBox = _
      unfold writeFtypBox
      rw [h1]
    · simp
  | writeFreeBoxAndMdatHeader =>
    cases hF : w.ftyp_size with
    | none =>
      left
      refine ⟨hs.1.mp hF, "m_ftyp_size is not initialised", ?_⟩
      show w.writeFreeBoxAndMdatHeader = _
      unfold writeFreeBoxAndMdatHeader
      rw [hF]
      rfl
    | some F =>
      right
      obtain ⟨w', h1, h2, h3⟩ := writeFree_any hF
      refine ⟨fun hn => ?_, w', h1, hs.other (fun h => by cases h) h2 (h3 ▸ hs.2)⟩
      rw [hs.1.mpr hn] at hF
      cases hF
  | writeMoovBox =>
    cases hF : w.ftyp_size with
    | none =>
      left
      refine ⟨hs.1.mp hF, "m_ftyp_size is not initialised", ?_⟩
      show w.writeMoovBox = _
      unfold writeMoovBox setOffsetAndSize
      rw [hF]
      rfl
    | some F =>
      right
      obtain ⟨w', h1, h2, h3⟩ := writeMoov_any hF hs.2
      refine ⟨fun hn => ?_, w', h1, hs.other (fun h => by cases h) h2 h3⟩
      rw [hs.1.mpr hn] at hF
      cases hF
  | addMdatData data => exact .inr ⟨fun h => h, _, rfl, hs.other (fun h => by cases h) rfl hs.2⟩
  | tellCurrentMdatOffset => exact .inr ⟨fun h => h, _, rfl, hs.other (fun h => by cases h) rfl hs.2⟩
  | appendTrakAndUdtaBoxInfo ts =>
    exact .inr ⟨fun h => h, _, rfl, hs.other (fun h => by cases h) rfl (appendUdta_writes _ (appendTracks_writes _ _ hs.2))⟩
  | appendUdtaBoxInfo d => exact .inr ⟨fun h => h, _, rfl, hs.other (fun h => by cases h) rfl (appendUdtaWith_writes _ _ hs.2)⟩
  | getAndUpdateNextTrackID => exact .inr ⟨fun h => h, _, rfl, hs.other (fun h => by cases h) rfl hs.2⟩

theorem After.seen {os : OStream} {f : Ftyp} {ts : BitVec 32} {dur now : BitVec 64} {h : List SimpleCall} {w : SimpleWriter}
    (ha : After (new os f ts dur now) h w) : Seen h w := by
  induction ha with
  | start => exact ⟨by simp [new], good_writes (FaststartWriter.newMoov_good _)⟩
  | call _ hc ih =>
    rcases step_seen ih _ with ⟨-, what, h1⟩ | ⟨-, w', h1, h2⟩
    · rw [h1] at hc; cases hc
    · rw [h1] at hc; cases hc; exact h2

end SimpleWriter

/-- **C81** `SimpleWriter`, on a working stream: after any calls in any order, the next call is undefined exactly if it is
`writeFreeBoxAndMdatHeader` or `writeMoovBox` and `writeFtypBox` was not among the calls before; every other call returns. -/
theorem C81_simple (os : OStream) (f : Ftyp) (ts : BitVec 32) (dur now : BitVec 64) (before : List SimpleCall) (w : SimpleWriter)
    (ha : SimpleWriter.After (SimpleWriter.new os f ts dur now) before w) (c : SimpleCall) :
    (Spec.tooEarlySimple before c → ∃ what, w.step c = .error (.ub what)) ∧
    (¬ Spec.tooEarlySimple before c → ∃ w', w.step c = .ok w') := by
  rcases SimpleWriter.step_seen ha.seen c with ⟨h1, h2⟩ | ⟨h1, w', h2, -⟩
  · exact ⟨fun _ => h2, fun h => absurd h1 h⟩
  · exact ⟨fun h => absurd h h1, fun _ => ⟨w', h2⟩⟩

/-- **C81** So a program is defined, and all its calls return, exactly if none of its calls comes too early. -/
theorem C81_simple_program (os : OStream) (f : Ftyp) (ts : BitVec 32) (dur now : BitVec 64) (calls : List SimpleCall) :
    (∃ w, SimpleWriter.After (SimpleWriter.new os f ts dur now) calls w) ↔
      ∀ before c after, calls = before ++ c :: after → ¬ Spec.tooEarlySimple before c := by
  constructor
  · rintro ⟨w, ha⟩
    induction ha with
    | start => intro a c b e; simp at e
    | @call h w w' c ha hc ih =>
      intro a c' b e
      rcases List.eq_nil_or_concat b with rfl | ⟨b', x, rfl⟩
      · have e1 := List.append_inj_left' e rfl
        have e2 := List.append_inj_right' e rfl
        cases e1
        cases e2
        intro ht
        obtain ⟨what, h1⟩ := (C81_simple os f ts dur now _ _ ha c).1 ht
        rw [h1] at hc
        cases hc
      · rw [show a ++ c' :: (b'.concat x) = (a ++ c' :: b') ++ [x] by simp] at e
        exact ih a c' b' (List.append_inj_left' e rfl)
  · intro hd
    suffices ∀ b a, calls = a ++ b → (∃ w, SimpleWriter.After (SimpleWriter.new os f ts dur now) a w) →
        ∃ w, SimpleWriter.After (SimpleWriter.new os f ts dur now) calls w from this calls [] rfl ⟨_, .start⟩
    intro b
    induction b with
    | nil => rintro a rfl hw; simpa using hw
    | cons c b ih =>
      rintro a e ⟨w, ha⟩
      obtain ⟨w', hw'⟩ := (C81_simple os f ts dur now _ _ ha c).2 (hd a c b e)
      exact ih (a ++ [c]) (by simp [e]) ⟨w', .call ha hw'⟩

/-! ### FaststartWriter -/

namespace OpenFaststart

/-- What the calls made so far leave. -/
structure Seen (h : List FaststartCall) (s : OpenFaststart) : Prop where
  ftyp : s.w.ftyp_size = none ↔ .writeFtypBox ∉ h
  absent : s.w.moov = none → ¬ Spec.laidOut h
  moov : ∀ t, s.w.moov = some t → t.All Writes ∧ t.box.header ≠ Option.none ∧ (t.All HasHeader ↔ Spec.laidOut h)
  isOpen : s.isOpen = true ↔ .copyMdatData ∉ h
  present : s.present = true ↔ .copyMdatData ∉ h ∧ .deleteIntermediateFile ∉ h

/-- A call that does not matter for any of this. -/
theorem Seen.other {h : List FaststartCall} {s : OpenFaststart} {w' : FaststartWriter} {c : FaststartCall} (hs : Seen h s)
    (h1 : w'.ftyp_size = s.w.ftyp_size) (h2 : w'.moov = s.w.moov) (hf : c ≠ .writeFtypBox) (ha : ∀ ts, c ≠ .appendTrakAndUdtaBoxInfo ts)
    (hu : ∀ d, c ≠ .appendUdtaBoxInfo d) (hc : c ≠ .copyMdatData) (hd : c ≠ .deleteIntermediateFile) :
    Seen (h ++ [c]) { s with w := w' } where
  ftyp := by
    dsimp only
    rw [h1, hs.ftyp]
    simp [hf.symm]
  absent := by
    dsimp only
    rw [h2, Spec.laidOut_other h c ha hu]
    exact hs.absent
  moov := by
    dsimp only
    rw [h2, Spec.laidOut_other h c ha hu]
    exact hs.moov
  isOpen := by
    dsimp only
    rw [hs.isOpen]
    simp [hc.symm]
  present := by
    dsimp only
    rw [hs.present]
    simp [hc.symm, hd.symm]

theorem writeMdatHeader_any {w : FaststartWriter} {F : Nat} (hF : w.ftyp_size = some F)
    (hm : ∀ t, w.moov = some t → t.box.header ≠ Option.none) :
    ∃ w', w.writeMdatHeader = .ok w' ∧ w'.ftyp_size = w.ftyp_size ∧ w'.moov = w.moov := by
  unfold FaststartWriter.writeMdatHeader FaststartWriter.getMoovSize
  simp only [hF, initialised]
  cases hmv : w.moov with
  | none => exact ⟨_, rfl, rfl, rfl⟩
  | some t =>
    obtain ⟨n, hn⟩ := getSize_headers (hm t hmv)
    dsimp only
    rw [hn]
    exact ⟨_, rfl, rfl, rfl⟩

theorem writeMoov_ok {w : FaststartWriter} {F : Nat} {t : Tree} (hF : w.ftyp_size = some F) (ht : w.moov = some t) (hw : t.All Writes)
    (hh : t.All HasHeader) : ∃ w' t', w.writeMoovBox = .ok w' ∧ w'.ftyp_size = w.ftyp_size ∧ w'.moov = some t' ∧ t'.All Writes ∧
      t'.All HasHeader := by
  have hw' := setNextTrackID_writes w.next_track_id hw
  obtain ⟨t', os', h4, h5, h6⟩ := writeTree_headers (w.os.seekp F) hw' ((setNextTrackID_headers _).mpr hh)
  refine ⟨{ w with moov := some t', os := os' }, t', ?_, rfl, rfl, writes_erase h5 hw', h6⟩
  unfold FaststartWriter.writeMoovBox
  simp only [hF, ht, initialised]
  rw [h4]

theorem writeMoov_missing {w : FaststartWriter} {F : Nat} {t : Tree} (hF : w.ftyp_size = some F) (ht : w.moov = some t) (hw : t.All Writes)
    (hh : ¬ t.All HasHeader) : ∃ what, w.writeMoovBox = .error (.ub what) := by
  obtain ⟨what, h⟩ := writeTree_missing (w.os.seekp F) (setNextTrackID_writes w.next_track_id hw)
    (fun h => hh ((setNextTrackID_headers _).mp h))
  refine ⟨what, ?_⟩
  unfold FaststartWriter.writeMoovBox
  simp only [hF, ht, initialised]
  rw [h]

theorem copy_any (w : FaststartWriter) : ∃ w', w.copyMdatData = .ok w' ∧ w'.ftyp_size = w.ftyp_size ∧ w'.moov = w.moov := by
  obtain ⟨w', h1, -⟩ := FaststartWriter.copyMdatData_eq w
  refine ⟨w', h1, ?_⟩
  unfold FaststartWriter.copyMdatData at h1
  split at h1
  · cases h1
  · cases h1
    exact ⟨rfl, rfl⟩

/-- The messages of the two exceptions that are left. -/
def gone : String := "FaststartWriter::deleteIntermediateFile(): cannot remove the intermediate file"
def shrink : String := "FaststartWriter::appendTrakAndUdtaBoxInfo(): shrink moov size"

/-- How a call ends. -/
theorem step_seen {h : List FaststartCall} {s : OpenFaststart} (hs : Seen h s) (c : FaststartCall) :
    (Spec.undefinedFaststart h c ∧ ∃ what, (s.step c).1 = .undefined what) ∨
    (¬ Spec.undefinedFaststart h c ∧ Seen (h ++ [c]) (s.step c).2 ∧
      (((c = .deleteIntermediateFile ∨ c = .copyMdatData) ∧ .deleteIntermediateFile ∈ h ∧ (s.step c).1 = .threw gone) ∨
       (c = .deleteIntermediateFile ∧ .copyMdatData ∈ h ∧ (s.step c).1 = .threw gone) ∨
       ((∃ ts, c = .appendTrakAndUdtaBoxInfo ts) ∧ (s.step c).1 = .threw shrink) ∨
       (¬ ((c = .deleteIntermediateFile ∨ c = .copyMdatData) ∧ .deleteIntermediateFile ∈ h) ∧
        ¬ (c = .deleteIntermediateFile ∧ .copyMdatData ∈ h) ∧ (s.step c).1 = .returned))) := by
  have hhead : ∀ t, s.w.moov = some t → t.box.header ≠ Option.none := fun t ht => (hs.moov t ht).2.1
  cases c with
  | writeFtypBox =>
    right
    obtain ⟨n, os, h1⟩ := writeFtyp_any s.w.ftyp s.w.os
    have h2 : s.step .writeFtypBox = (.returned, { s with w := { s.w with ftyp_size := some n, os := os } }) := by
      show s.withWriter s.w.writeFtypBox = _
      unfold FaststartWriter.writeFtypBox
      rw [h1]
      rfl
    rw [h2]
    refine ⟨fun h => h, ⟨by simp, ?_, ?_, ?_, ?_⟩, .inr (.inr (.inr ⟨by simp, by simp, rfl⟩))⟩
    · rw [Spec.laidOut_other h _ (by simp) (by simp)]; exact hs.absent
    · rw [Spec.laidOut_other h _ (by simp) (by simp)]; exact hs.moov
    · simpa using hs.isOpen
    · simpa using hs.present
  | writeMdatHeader =>
    cases hF : s.w.ftyp_size with
    | none =>
      left
      refine ⟨hs.ftyp.mp hF, "m_ftyp_size is not initialised", ?_⟩
      show (s.withWriter s.w.writeMdatHeader).1 = _
      unfold FaststartWriter.writeMdatHeader
      rw [hF]
      rfl
    | some F =>
      right
      obtain ⟨w', h1, h2, h3⟩ := writeMdatHeader_any hF hhead
      have h4 : s.step .writeMdatHeader = (.returned, { s with w := w' }) := by
        show s.withWriter s.w.writeMdatHeader = _
        rw [h1]
        rfl
      rw [h4]
      refine ⟨fun hn => ?_, hs.other h2 h3 (by simp) (by simp) (by simp) (by simp) (by simp),
        .inr (.inr (.inr ⟨by simp, by simp, rfl⟩))⟩
      rw [hs.ftyp.mpr hn] at hF
      cases hF
  | writeMoovBox =>
    cases hF : s.w.ftyp_size with
    | none =>
      left
      refine ⟨.inl (hs.ftyp.mp hF), "m_ftyp_size is not initialised", ?_⟩
      show (s.withWriter s.w.writeMoovBox).1 = _
      unfold FaststartWriter.writeMoovBox
      rw [hF]
      rfl
    | some F =>
      cases hm : s.w.moov with
      | none =>
        left
        refine ⟨.inr (hs.absent hm), "m_mvhd_box is not initialised", ?_⟩
        show (s.withWriter s.w.writeMoovBox).1 = _
        unfold FaststartWriter.writeMoovBox
        rw [hF, hm]
        rfl
      | some t =>
        obtain ⟨hw, -, hl⟩ := hs.moov t hm
        by_cases hh : t.All HasHeader
        · right
          obtain ⟨w', t', h1, h2, h3, h4, h5⟩ := writeMoov_ok hF hm hw hh
          have h6 : s.step .writeMoovBox = (.returned, { s with w := w' }) := by
            show s.withWriter s.w.writeMoovBox = _
            rw [h1]
            rfl
          rw [h6]
          have hlo := Spec.laidOut_other h .writeMoovBox (by simp) (by simp)
          refine ⟨?_, ⟨?_, ?_, ?_, by simpa using hs.isOpen, by simpa using hs.present⟩, .inr (.inr (.inr ⟨by simp, by simp, rfl⟩))⟩
          · rintro (hn | hn)
            · rw [hs.ftyp.mpr hn] at hF
              cases hF
            · exact hn (hl.mp hh)
          · dsimp only
            rw [h2, hs.ftyp]
            simp
          · dsimp only
            rw [h3]
            intro h
            cases h
          · dsimp only
            intro u hu
            rw [h3] at hu
            cases hu
            exact ⟨h4, all_box h5, fun _ => hlo.mpr (hl.mp hh), fun _ => h5⟩
        · left
          obtain ⟨what, h1⟩ := writeMoov_missing hF hm hw hh
          refine ⟨.inr (fun h => hh (hl.mpr h)), what, ?_⟩
          show (s.withWriter s.w.writeMoovBox).1 = _
          rw [h1]
          rfl
  | addMdatData d =>
    by_cases ho : s.isOpen = true
    · right
      have h4 : s.step (.addMdatData d) = (.returned, { s with w := s.w.addMdatData d }) := if_pos ho
      rw [h4]
      exact ⟨fun h => hs.isOpen.mp ho h, hs.other rfl rfl (by simp) (by simp) (by simp) (by simp) (by simp),
        .inr (.inr (.inr ⟨by simp, by simp, rfl⟩))⟩
    · left
      refine ⟨Classical.not_not.mp fun h => ho (hs.isOpen.mpr h), "fwrite on a closed FILE", ?_⟩
      rw [show s.step (.addMdatData d) = (.undefined "fwrite on a closed FILE", s) from if_neg ho]
  | tellCurrentMdatOffset =>
    by_cases ho : s.isOpen = true
    · right
      have h4 : s.step .tellCurrentMdatOffset = (.returned, s) := if_pos ho
      rw [h4]
      exact ⟨fun h => hs.isOpen.mp ho h, hs.other (w' := s.w) rfl rfl (by simp) (by simp) (by simp) (by simp) (by simp),
        .inr (.inr (.inr ⟨by simp, by simp, rfl⟩))⟩
    · left
      refine ⟨Classical.not_not.mp fun h => ho (hs.isOpen.mpr h), "ftell on a closed FILE", ?_⟩
      rw [show s.step .tellCurrentMdatOffset = (.undefined "ftell on a closed FILE", s) from if_neg ho]
  | appendTrakAndUdtaBoxInfo ts =>
    cases hF : s.w.ftyp_size with
    | none =>
      left
      refine ⟨hs.ftyp.mp hF, "m_ftyp_size is not initialised", ?_⟩
      show Ends.of (s.w.appendKept ts).1 = _
      unfold FaststartWriter.appendKept FaststartWriter.headSize
      rw [hF]
      rfl
    | some F =>
      right
      obtain ⟨r, w', h1, h2, ⟨t, h3, h4, h5⟩, h6⟩ := appendKept_any hF hhead ts
      have h7 : s.step (.appendTrakAndUdtaBoxInfo ts) = (Ends.of r, { s with w := w' }) := by
        show (Ends.of (s.w.appendKept ts).1, { s with w := (s.w.appendKept ts).2 }) = _
        rw [h1]
      rw [h7]
      refine ⟨fun hn => ?_, ⟨?_, ?_, ?_, by simpa using hs.isOpen, by simpa using hs.present⟩, ?_⟩
      · rw [hs.ftyp.mpr hn] at hF
        cases hF
      · dsimp only
        rw [h2, ← hF, hs.ftyp]
        simp
      · dsimp only
        rw [h3]
        intro h
        cases h
      · dsimp only
        intro u hu
        rw [h3] at hu
        cases hu
        exact ⟨h4, all_box h5, fun _ => Spec.laidOut_append _ _, fun _ => h5⟩
      · rcases h6 with rfl | rfl
        · exact .inr (.inr (.inr ⟨by simp, by simp, rfl⟩))
        · exact .inr (.inr (.inl ⟨⟨ts, rfl⟩, rfl⟩))
  | appendUdtaBoxInfo d =>
    right
    have hud := Spec.laidOut_udta h d
    refine ⟨fun h => h, ⟨?_, fun _ => hud, ?_, ?_, ?_⟩, .inr (.inr (.inr ⟨by simp, by simp, rfl⟩))⟩
    · show s.w.ftyp_size = _ ↔ _
      rw [hs.ftyp]
      simp
    · intro t ht
      have ht : s.w.moov.map (appendUdtaWith d) = some t := ht
      cases hm : s.w.moov with
      | none => rw [hm] at ht; cases ht
      | some t0 =>
        rw [hm] at ht
        cases ht
        refine ⟨appendUdtaWith_writes _ _ (hs.moov t0 hm).1, ?_, fun h => absurd h (appendUdtaWith_missing d t0), fun h => absurd h hud⟩
        have := (hs.moov t0 hm).2.1
        obtain ⟨b, p, ls⟩ := t0
        exact this
    · show s.isOpen = true ↔ _
      rw [hs.isOpen]
      simp
    · show s.present = true ↔ _
      rw [hs.present]
      simp
  | getAndUpdateNextTrackID =>
    right
    exact ⟨fun h => h, hs.other (w' := s.w.getAndUpdateNextTrackID.2) rfl rfl (by simp) (by simp) (by simp) (by simp) (by simp),
      .inr (.inr (.inr ⟨by simp, by simp, rfl⟩))⟩
  | copyMdatData =>
    by_cases ho : s.isOpen = true
    · right
      have hc := hs.isOpen.mp ho
      obtain ⟨w', h1, h2, h3⟩ := copy_any s.w
      have h4 : s.step .copyMdatData = deleteIntermediateFile { s with w := w', isOpen := false } := by
        rw [step, if_pos ho, h1]
      rw [h4]
      have hlo := Spec.laidOut_other h .copyMdatData (by simp) (by simp)
      have hseen : ∀ q : Bool, q = false → Seen (h ++ [.copyMdatData]) { s with w := w', isOpen := false, present := q } := by
        rintro q rfl
        refine ⟨?_, ?_, ?_, by simp, by simp⟩
        · dsimp only
          rw [h2, hs.ftyp]
          simp
        · dsimp only
          rw [h3, hlo]
          exact hs.absent
        · dsimp only
          rw [h3, hlo]
          exact hs.moov
      by_cases hp : s.present = true
      · rw [show deleteIntermediateFile { s with w := w', isOpen := false } =
          (.returned, { s with w := w', isOpen := false, present := false }) from if_pos hp]
        exact ⟨hc, hseen _ rfl, .inr (.inr (.inr ⟨fun h => (hs.present.mp hp).2 h.2, by simp, rfl⟩))⟩
      · have hd : .deleteIntermediateFile ∈ h := Classical.not_not.mp fun hn => hp (hs.present.mpr ⟨hc, hn⟩)
        rw [show deleteIntermediateFile { s with w := w', isOpen := false } =
          (.threw gone, { s with w := w', isOpen := false }) from if_neg hp]
        exact ⟨hc, hseen s.present (by simpa using hp), .inl ⟨.inr rfl, hd, rfl⟩⟩
    · left
      refine ⟨Classical.not_not.mp fun h => ho (hs.isOpen.mpr h), "fseek on a closed FILE", ?_⟩
      rw [show s.step .copyMdatData = (.undefined "fseek on a closed FILE", s) from if_neg ho]
  | deleteIntermediateFile =>
    right
    have hlo := Spec.laidOut_other h .deleteIntermediateFile (by simp) (by simp)
    have hseen : ∀ q : Bool, q = false → Seen (h ++ [.deleteIntermediateFile]) { s with present := q } := by
      rintro q rfl
      refine ⟨?_, ?_, ?_, ?_, by simp⟩
      · dsimp only
        rw [hs.ftyp]
        simp
      · dsimp only
        rw [hlo]
        exact hs.absent
      · dsimp only
        rw [hlo]
        exact hs.moov
      · dsimp only
        rw [hs.isOpen]
        simp
    by_cases hp : s.present = true
    · rw [show s.step .deleteIntermediateFile = (.returned, { s with present := false }) from if_pos hp]
      exact ⟨fun h => h, hseen _ rfl, .inr (.inr (.inr ⟨fun h => (hs.present.mp hp).2 h.2, fun h => (hs.present.mp hp).1 h.2, rfl⟩))⟩
    · rw [show s.step .deleteIntermediateFile = (.threw gone, s) from if_neg hp]
      refine ⟨fun h => h, hseen s.present (by simpa using hp), ?_⟩
      by_cases hd : .deleteIntermediateFile ∈ h
      · exact .inl ⟨.inl rfl, hd, rfl⟩
      · exact .inr (.inl ⟨rfl, Classical.not_not.mp fun hn => hp (hs.present.mpr ⟨hn, hd⟩), rfl⟩)

theorem After.seen {os : OStream} {f : Ftyp} {ts : BitVec 32} {dur now : BitVec 64} {h : List FaststartCall} {s : OpenFaststart}
    (ha : After { w := FaststartWriter.new os f ts dur now } h s) : Seen h s := by
  induction ha with
  | start =>
    refine ⟨by simp [FaststartWriter.new], ?_, ?_, by simp, by simp⟩
    · rintro - hl
      obtain ⟨ts, h⟩ := Spec.laidOut_mem hl
      cases h
    · intro t ht
      cases ht
  | call _ hc ih =>
    rcases step_seen ih _ with ⟨-, what, h1⟩ | ⟨-, h1, -⟩
    · exact absurd h1 (hc what)
    · exact h1

end OpenFaststart

/-- **C81** `FaststartWriter`, on a working stream and C library: after any calls in any order, with exceptions caught, the next call is
undefined exactly if it needs the size of `ftyp` and `writeFtypBox` was not called before, or is `writeMoovBox` and the boxes of `moov` were
not laid out by a call of `appendTrakAndUdtaBoxInfo` after the last call that added boxes, or uses the intermediate file that
`copyMdatData` has closed. -/
theorem C81_faststart (os : OStream) (f : Ftyp) (ts : BitVec 32) (dur now : BitVec 64) (before : List FaststartCall) (s : OpenFaststart)
    (ha : OpenFaststart.After { w := FaststartWriter.new os f ts dur now } before s) (c : FaststartCall) :
    (∃ what, (s.step c).1 = .undefined what) ↔ Spec.undefinedFaststart before c := by
  rcases OpenFaststart.step_seen ha.seen c with ⟨h1, h2⟩ | ⟨h1, -, h3⟩
  · exact ⟨fun _ => h1, fun _ => h2⟩
  · refine ⟨?_, fun h => absurd h h1⟩
    rintro ⟨what, h⟩
    rcases h3 with ⟨-, -, h3⟩ | ⟨-, -, h3⟩ | ⟨-, h3⟩ | ⟨-, -, h3⟩ <;> rw [h3] at h <;> cases h

/-- **C81** The defined calls return, except that the intermediate file can be removed only once, and that `appendTrakAndUdtaBoxInfo` can
find that `moov` became smaller (its loop always ends). -/
theorem C81_faststart_throws (os : OStream) (f : Ftyp) (ts : BitVec 32) (dur now : BitVec 64) (before : List FaststartCall)
    (s : OpenFaststart) (ha : OpenFaststart.After { w := FaststartWriter.new os f ts dur now } before s) (c : FaststartCall)
    (hc : ¬ Spec.undefinedFaststart before c) :
    (s.step c).1 = .returned ∨
    ((c = .deleteIntermediateFile ∨ c = .copyMdatData) ∧ (.deleteIntermediateFile ∈ before ∨ .copyMdatData ∈ before) ∧
      (s.step c).1 = .threw "FaststartWriter::deleteIntermediateFile(): cannot remove the intermediate file") ∨
    ((∃ tracks, c = .appendTrakAndUdtaBoxInfo tracks) ∧
      (s.step c).1 = .threw "FaststartWriter::appendTrakAndUdtaBoxInfo(): shrink moov size") := by
  rcases OpenFaststart.step_seen ha.seen c with ⟨h1, -⟩ | ⟨-, -, h3⟩
  · exact absurd h1 hc
  · rcases h3 with ⟨a, b, h3⟩ | ⟨a, b, h3⟩ | ⟨a, h3⟩ | ⟨-, -, h3⟩
    · exact .inr (.inl ⟨a, .inl b, h3⟩)
    · exact .inr (.inl ⟨.inl a, .inr b, h3⟩)
    · exact .inr (.inr ⟨a, h3⟩)
    · exact .inl h3

/-- **C81** And a second removal always throws. -/
theorem C81_removed_once (os : OStream) (f : Ftyp) (ts : BitVec 32) (dur now : BitVec 64) (before : List FaststartCall)
    (s : OpenFaststart) (ha : OpenFaststart.After { w := FaststartWriter.new os f ts dur now } before s) :
    ((s.step .deleteIntermediateFile).1 = .returned ↔ .deleteIntermediateFile ∉ before ∧ .copyMdatData ∉ before) ∧
    ((s.step .copyMdatData).1 = .returned ↔ .deleteIntermediateFile ∉ before ∧ .copyMdatData ∉ before) := by
  constructor
  · rcases OpenFaststart.step_seen ha.seen .deleteIntermediateFile with ⟨h1, -⟩ | ⟨-, -, h3⟩
    · exact absurd h1 (fun h => h)
    · rcases h3 with ⟨a, b, h3⟩ | ⟨a, b, h3⟩ | ⟨⟨_, a⟩, h3⟩ | ⟨a, b, h3⟩
      · rw [h3]; exact ⟨fun h => (by cases h), fun h => absurd b h.1⟩
      · rw [h3]; exact ⟨fun h => (by cases h), fun h => absurd b h.2⟩
      · cases a
      · exact ⟨fun _ => ⟨fun h => a ⟨.inl rfl, h⟩, fun h => b ⟨rfl, h⟩⟩, fun _ => h3⟩
  · rcases OpenFaststart.step_seen ha.seen .copyMdatData with ⟨h1, what, h2⟩ | ⟨h1, -, h3⟩
    · rw [h2]; exact ⟨fun h => (by cases h), fun h => absurd h1 h.2⟩
    · rcases h3 with ⟨a, b, h3⟩ | ⟨a, b, h3⟩ | ⟨⟨_, a⟩, h3⟩ | ⟨a, b, h3⟩
      · rw [h3]; exact ⟨fun h => (by cases h), fun h => absurd b h.1⟩
      · cases a
      · cases a
      · exact ⟨fun _ => ⟨fun h => a ⟨.inr rfl, h⟩, h1⟩, fun _ => h3⟩

/-- **C81** So a program is defined exactly if none of its calls is undefined after the ones before it. -/
theorem C81_faststart_program (os : OStream) (f : Ftyp) (ts : BitVec 32) (dur now : BitVec 64) (calls : List FaststartCall) :
    (∃ s, OpenFaststart.After { w := FaststartWriter.new os f ts dur now } calls s) ↔
      ∀ before c after, calls = before ++ c :: after → ¬ Spec.undefinedFaststart before c := by
  constructor
  · rintro ⟨w, ha⟩
    induction ha with
    | start => intro a c b e; simp at e
    | @call h s c ha hc ih =>
      intro a c' b e
      rcases List.eq_nil_or_concat b with rfl | ⟨b', x, rfl⟩
      · have e1 := List.append_inj_left' e rfl
        have e2 := List.append_inj_right' e rfl
        cases e1
        cases e2
        intro ht
        obtain ⟨what, h1⟩ := (C81_faststart os f ts dur now _ _ ha c).2 ht
        exact hc what h1
      · rw [show a ++ c' :: (b'.concat x) = (a ++ c' :: b') ++ [x] by simp] at e
        exact ih a c' b' (List.append_inj_left' e rfl)
  · intro hd
    suffices ∀ b a, calls = a ++ b → (∃ s, OpenFaststart.After { w := FaststartWriter.new os f ts dur now } a s) →
        ∃ s, OpenFaststart.After { w := FaststartWriter.new os f ts dur now } calls s from this calls [] rfl ⟨_, .start⟩
    intro b
    induction b with
    | nil => rintro a rfl hw; simpa using hw
    | cons c b ih =>
      rintro a e ⟨s, ha⟩
      refine ih (a ++ [c]) (by simp [e]) ⟨_, .call ha fun what h => ?_⟩
      exact hd a c b e ((C81_faststart os f ts dur now _ _ ha c).1 ⟨what, h⟩)

end Mp4
