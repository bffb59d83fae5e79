import Verif.Lemmas.MemorySteps

/-! # The calls on a `FaststartWriter`, on the heap -/

namespace Mp4
open Mem Mem.ATree
namespace FaultyFaststart

/-- The members of a writer whose tree in memory is `o`. -/
def withMoov (x : FaultyFaststart) (o : Option Tree) : FaultyFaststart := { x with w := { x.w with moov := o } }

/-- How a call ends on values and on the heap. -/
def Sim (p : Prop) (r : Except Err FaultyFaststart) (m : Option (Except Err FaultyFaststart × State)) : Prop :=
  match r with
  | .ok y => ∃ z s', m = some (.ok z, s') ∧ Owns s' [] y.w.moov ∧ z.withMoov y.w.moov = y
  | .error e => ∃ s' o st, m = some (.error e, s') ∧ Owns s' st o ∧ st.length ≤ 3 ∧ (st ≠ [] → p)

theorem Sim.weaken {p q : Prop} {r : Except Err FaultyFaststart} {m : Option (Except Err FaultyFaststart × State)} (h : Sim p r m) (hpq : p → q) :
    Sim q r m := by
  cases r with
  | ok y => exact h
  | error e =>
    obtain ⟨s', o, st, h1, h2, h3, h4⟩ := h
    exact ⟨s', o, st, h1, h2, h3, fun h => hpq (h4 h)⟩

theorem writeFtypBox_sim {s : State} {o : Option Tree} (h : Owns s [] o) (fuel : Nat) (hf : 16 ≤ fuel) (x : FaultyFaststart) :
    Sim True (x.withMoov o).writeFtypBox (x.writeFtypBoxM fuel s) := by
  obtain ⟨s', l, h1, h2, h3⟩ := writeFtyp_sim x.dev fuel (by omega) x.w.ftyp x.s s
  have e1 : (x.withMoov o).writeFtypBox = (match writeFtypF x.dev x.w.ftyp x.s with
    | .error e => .error e
    | .ok (size, s) => .ok { x.withMoov o with w := { (x.withMoov o).w with ftyp_size := some size }, s }) := rfl
  rw [e1]
  unfold writeFtypBoxM
  cases hw : writeFtypF x.dev x.w.ftyp x.s with
  | error e =>
    rw [hw] at h3
    exact ⟨s', o, _, bind_error h3, h.beside h1, by rw [List.nil_append]; exact h2, fun _ => trivial⟩
  | ok r =>
    obtain ⟨n, str⟩ := r
    rw [hw] at h3
    rw [bind_ok h3]
    dsimp only
    exact ⟨_, _, rfl, h.cleared h1, rfl⟩

theorem getMoovSize_sim {s : State} {st : List Nat} (w : FaststartWriter) (h : Owns s st w.moov) :
    getMoovSizeM s = some (w.getMoovSize, s) := by
  unfold getMoovSizeM FaststartWriter.getMoovSize
  rw [bind_ok (show getMoov s = some (.ok s.moov, s) from rfl)]
  cases hm : w.moov with
  | none => rw [hm] at h; rw [h.2.1]; rfl
  | some u =>
    rw [hm] at h
    obtain ⟨t, h⟩ := h
    rw [h.moov]
    exact infoSize_ok h.holds

theorem headSize_sim {s : State} {st : List Nat} (x : FaultyFaststart) (o : Option Tree) (h : Owns s st o) :
    headSizeM x s = some ((x.withMoov o).w.headSize, s) := by
  unfold headSizeM FaststartWriter.headSize
  rw [show (x.withMoov o).w.ftyp_size = x.w.ftyp_size from rfl]
  cases h0 : initialised x.w.ftyp_size with
  | error e => exact bind_error (pureM_error e _)
  | ok ftyp_size =>
    rw [bind_ok (pureM_ok _ _)]
    have hg := getMoovSize_sim (x.withMoov o).w h
    dsimp only
    cases hm : (x.withMoov o).w.getMoovSize with
    | error e => rw [hm] at hg; exact bind_error hg
    | ok n => rw [hm] at hg; rw [bind_ok hg]; rfl

theorem setOffsetAndSize_sim {s : State} {u : Tree} (x : FaultyFaststart) (h : Owns s [] (some u)) (fuel : Nat) (hf : 16 ≤ fuel) :
    match FaststartWriter.setOffsetAndSize { x.w with moov := some u } with
    | .error e => ∃ o, setOffsetAndSizeM fuel x s = some (.error e, s) ∧ Owns s [] o
    | .ok w => ∃ s' u', w = { x.w with moov := some u' } ∧ setOffsetAndSizeM fuel x s = some (.ok (), s') ∧ Owns s' [] (some u') := by
  obtain ⟨t, h⟩ := h
  unfold FaststartWriter.setOffsetAndSize setOffsetAndSizeM
  dsimp only
  cases h0 : initialised x.w.ftyp_size with
  | error e =>
    refine ⟨some u, ?_, t, h⟩
    rw [bind_ok (theMoov_own h)]
    exact bind_error (pureM_error e _)
  | ok ftyp_size =>
    dsimp only
    obtain ⟨s1, t1, u1, a1, a2, a3, a4⟩ := h.adjust fuel ftyp_size hf
    rw [a2]
    refine ⟨s1, u1, rfl, ?_, t1, a3⟩
    rw [bind_ok (theMoov_own h), bind_ok (pureM_ok _ _), bind_ok a1, pure_run]

theorem recreate_sim {s : State} {o : Option Tree} (x : FaultyFaststart) (h : Owns s [] o) (fuel : Nat) (hf : 16 ≤ fuel) :
    match FaststartWriter.recreateMoovBoxInfo { x.w with moov := o } with
    | .error e => ∃ s' o', recreateMoovBoxInfoM fuel x s = some (.error e, s') ∧ Owns s' [] o'
    | .ok w => ∃ s' u', w = { x.w with moov := some u' } ∧ recreateMoovBoxInfoM fuel x s = some (.ok (), s') ∧ Owns s' [] (some u') := by
  have hdel : ∃ s1, (∀ x, s1.cell x ≠ none → x ∈ ([] : List Nat)) ∧ ∀ (k : M Unit),
      (getMoov >>= fun y => match y with
        | none => k
        | some a => deleteInfo fuel a >>= fun _ => k) s = k s1 := by
    cases o with
    | none =>
      refine ⟨s, h.1, fun k => ?_⟩
      rw [bind_ok (show getMoov s = some (.ok s.moov, s) from rfl), h.2.1]
    | some u =>
      obtain ⟨t, h⟩ := h
      have hd := h.depth
      refine ⟨s.clear (addrs t), fun x hx => ?_, fun k => ?_⟩
      · by_cases hm : x ∈ addrs t
        · exact absurd (by unfold State.clear; dsimp only; rw [if_pos hm]) hx
        · rw [clear_other hm] at hx
          rcases h.live x hx with h | h
          · exact absurd h hm
          · exact h
      · rw [bind_ok (show getMoov s = some (.ok s.moov, s) from rfl), h.moov]
        dsimp only
        rw [bind_ok (deleteInfo_ok t s fuel (Holds.rep _ _ h.holds) h.fine.1 (by omega))]
  obtain ⟨s1, h1, h2⟩ := hdel
  obtain ⟨s2, t2, h3, h4⟩ := newMoov_own h1 (newMvhd x.w.time_from_epoch x.w.mvhd_timescale x.w.mvhd_duration x.w.next_track_id)
  have hrun : recreateMoovBoxInfoM fuel x s = setOffsetAndSizeM fuel x s2 := by
    refine Eq.trans (h2 (do
      newMoovM (newMvhd x.w.time_from_epoch x.w.mvhd_timescale x.w.mvhd_duration x.w.next_track_id)
      setOffsetAndSizeM fuel x)) ?_
    rw [bind_ok h3]
  have h5 := setOffsetAndSize_sim x ⟨t2, h4⟩ fuel hf
  rw [hrun]
  have e1 : FaststartWriter.recreateMoovBoxInfo { x.w with moov := o } = FaststartWriter.setOffsetAndSize
    { x.w with moov := some (newMoov (newMvhd x.w.time_from_epoch x.w.mvhd_timescale x.w.mvhd_duration x.w.next_track_id)) } := rfl
  rw [e1]
  generalize FaststartWriter.setOffsetAndSize
    { x.w with moov := some (newMoov (newMvhd x.w.time_from_epoch x.w.mvhd_timescale x.w.mvhd_duration x.w.next_track_id)) } = r at h5
  cases r with
  | error e => obtain ⟨o', k1, k2⟩ := h5; exact ⟨s2, o', k1, k2⟩
  | ok w => exact h5

theorem appendRound_sim {s : State} {o : Option Tree} (x : FaultyFaststart) (h : Owns s [] o) (fuel : Nat) (hf : 16 ≤ fuel) (tracks : List Track)
    (prev_size size : Nat) :
    match FaststartWriter.appendRound { x.w with moov := o } tracks prev_size size with
    | .error e => ∃ s' o', appendRoundM fuel x tracks prev_size size s = some (.error e, s') ∧ Owns s' [] o'
    | .ok (w, tracks', n) => ∃ s' u', w = { x.w with moov := some u' } ∧
        appendRoundM fuel x tracks prev_size size s = some (.ok (tracks', n), s') ∧ Owns s' [] (some u') := by
  have h1 := recreate_sim x h fuel hf
  unfold FaststartWriter.appendRound appendRoundM
  cases hr : FaststartWriter.recreateMoovBoxInfo { x.w with moov := o } with
  | error e =>
    rw [hr] at h1
    obtain ⟨s', o', k1, k2⟩ := h1
    exact ⟨s', o', bind_error k1, k2⟩
  | ok w =>
    rw [hr] at h1
    obtain ⟨s1, u1, rfl, k1, t1, k2⟩ := h1
    rw [bind_ok k1]
    dsimp only
    obtain ⟨s2, t2, a1, a2⟩ := appendTracks_own (fun t => t.resetChunkOffsets (BitVec.ofNat 64 (sub64 size prev_size))) tracks s1 t1 u1 [] k2
    obtain ⟨s3, t3, b1, b2⟩ := appendUdta_own a2
    rw [appendTracksV_shift] at a1 b2
    rcases hsa : FaststartWriter.shiftAndAppend (sub64 size prev_size) tracks u1 with ⟨tracks', moov⟩
    rw [hsa] at a1 b2
    dsimp only at a1 b2 ⊢
    rw [bind_ok a1, bind_ok b1]
    have h2 := setOffsetAndSize_sim x ⟨t3, b2⟩ fuel hf
    cases hso : FaststartWriter.setOffsetAndSize { x.w with moov := some (appendUdtaBoxInfo moov) } with
    | error e =>
      rw [hso] at h2
      obtain ⟨o', k3, k4⟩ := h2
      exact ⟨s3, o', bind_error k3, k4⟩
    | ok w =>
      rw [hso] at h2
      obtain ⟨s4, u4, rfl, k3, k4⟩ := h2
      rw [bind_ok k3]
      dsimp only
      have h3 := headSize_sim x (some u4) k4
      rw [show (x.withMoov (some u4)).w = { x.w with moov := some u4 } from rfl] at h3
      cases hh : FaststartWriter.headSize { x.w with moov := some u4 } with
      | error e => rw [hh] at h3; exact ⟨s4, _, bind_error h3, k4⟩
      | ok n => rw [hh] at h3; exact ⟨s4, u4, rfl, bind_ok h3, k4⟩

theorem appendLoop_sim (x : FaultyFaststart) (fuel : Nat) (hf : 16 ≤ fuel) : ∀ (k : Nat) {s : State} {o : Option Tree} (tracks : List Track)
    (prev_size size : Nat), Owns s [] o →
    match FaststartWriter.appendLoop k { x.w with moov := o } tracks prev_size size with
    | .error e => ∃ s' o', appendLoopM fuel x k tracks prev_size size s = some (.error e, s') ∧ Owns s' [] o'
    | .ok (w, tracks') => ∃ s' o', w = { x.w with moov := o' } ∧
        appendLoopM fuel x k tracks prev_size size s = some (.ok tracks', s') ∧ Owns s' [] o'
  | 0, s, o, tracks, prev_size, size, h => ⟨s, o, rfl, h⟩
  | k + 1, s, o, tracks, prev_size, size, h => by
    have h1 := appendRound_sim x h fuel hf tracks prev_size size
    rw [FaststartWriter.appendLoop, appendLoopM]
    cases hr : FaststartWriter.appendRound { x.w with moov := o } tracks prev_size size with
    | error e =>
      rw [hr] at h1
      obtain ⟨s', o', k1, k2⟩ := h1
      exact ⟨s', o', bind_error k1, k2⟩
    | ok r =>
      obtain ⟨w, tracks', n⟩ := r
      rw [hr] at h1
      obtain ⟨s1, u1, rfl, k1, k2⟩ := h1
      rw [bind_ok k1]
      dsimp only
      by_cases h2 : n < size
      · rw [if_pos h2, if_pos h2]
        exact ⟨s1, some u1, rfl, k2⟩
      · rw [if_neg h2, if_neg h2]
        by_cases h3 : size ≠ n
        · rw [if_pos h3, if_pos h3]
          exact appendLoop_sim x fuel hf k tracks' size n k2
        · rw [if_neg h3, if_neg h3]
          exact ⟨s1, some u1, rfl, rfl, k2⟩

theorem append_sim {s : State} {o : Option Tree} (h : Owns s [] o) (fuel : Nat) (hf : 16 ≤ fuel) (x : FaultyFaststart) (tracks : List Track) :
    Sim False ((x.withMoov o).step (.appendTrakAndUdtaBoxInfo tracks)) (x.stepM fuel (.appendTrakAndUdtaBoxInfo tracks) s) := by
  unfold step stepM
  dsimp only
  unfold FaststartWriter.appendTrakAndUdtaBoxInfo FaultyFaststart.appendTrakAndUdtaBoxInfoM
  have h1 := headSize_sim x o h
  cases hh : (x.withMoov o).w.headSize with
  | error e =>
    rw [hh] at h1
    exact ⟨s, o, [], bind_error (bind_error h1), h, by simp, fun h => absurd rfl h⟩
  | ok n =>
    rw [hh] at h1
    dsimp only
    have h2 := appendLoop_sim x fuel hf (tracks.length + 3) tracks 0 n h
    rw [show (x.withMoov o).w = { x.w with moov := o } from rfl]
    cases hl : FaststartWriter.appendLoop (tracks.length + 3) { x.w with moov := o } tracks 0 n with
    | error e =>
      rw [hl] at h2
      obtain ⟨s', o', k1, k2⟩ := h2
      exact ⟨s', o', [], bind_error (by rw [bind_ok h1]; exact k1), k2, by simp, fun h => absurd rfl h⟩
    | ok r =>
      obtain ⟨w, ts⟩ := r
      rw [hl] at h2
      obtain ⟨s', o', rfl, k1, k2⟩ := h2
      exact ⟨x, s', bind_ok (by rw [bind_ok h1]; exact k1), k2, rfl⟩

theorem writeMoovBox_sim {s : State} {o : Option Tree} (h : Owns s [] o) (fuel : Nat) (hf : 16 ≤ fuel) (x : FaultyFaststart) :
    Sim False (x.withMoov o).writeMoovBox (x.writeMoovBoxM fuel s) := by
  unfold FaultyFaststart.writeMoovBox writeMoovBoxM
  rw [show (x.withMoov o).w.ftyp_size = x.w.ftyp_size from rfl, show (x.withMoov o).w.moov = o from rfl, show (x.withMoov o).s = x.s from rfl,
    show (x.withMoov o).dev = x.dev from rfl, show (x.withMoov o).w.next_track_id = x.w.next_track_id from rfl]
  cases h0 : initialised x.w.ftyp_size with
  | error e => exact ⟨s, o, [], bind_error (pureM_error e _), h, by simp, fun h => absurd rfl h⟩
  | ok ftyp_size =>
    rw [bind_ok (pureM_ok _ _)]
    dsimp only
    cases hk : (x.s.seekp x.dev ftyp_size).check "FaststartWriter::writeFtypBox(): ostream::seekp() failed" with
    | error e => exact ⟨s, o, [], bind_error (pureM_error e _), h, by simp, fun h => absurd rfl h⟩
    | ok str =>
      rw [bind_ok (pureM_ok _ _)]
      dsimp only
      cases o with
      | none =>
        refine ⟨s, none, [], bind_error ?_, h, by simp, fun h => absurd rfl h⟩
        unfold setNextTrackIDM
        rw [bind_ok (show getMvhd s = some (.ok s.mvhd, s) from rfl), h.2.2]
        rfl
      | some u =>
        obtain ⟨t, h⟩ := h
        obtain ⟨s2, b1, b2⟩ := h.setNextTrackID x.w.next_track_id
        rw [bind_ok b1, bind_ok (theMoov_own b2)]
        obtain ⟨s3, u3, c1, c2⟩ := b2.write x.dev fuel (by omega) str
        dsimp only
        cases hw : writeTreeF x.dev (setNextTrackID x.w.next_track_id u) str with
        | error e =>
          rw [hw] at c2
          exact ⟨s3, some u3, [], bind_error c2, ⟨t, c1⟩, by simp, fun h => absurd rfl h⟩
        | ok r =>
          obtain ⟨v, str2⟩ := r
          rw [hw] at c2
          obtain ⟨rfl, c2⟩ := c2
          exact ⟨_, s3, bind_ok c2, ⟨t, c1⟩, rfl⟩

theorem writeMdatHeader_sim {s : State} {o : Option Tree} (h : Owns s [] o) (x : FaultyFaststart) :
    Sim False (x.withMoov o).writeMdatHeader (x.writeMdatHeaderM s) := by
  have hg := getMoovSize_sim (x.withMoov o).w h
  unfold FaultyFaststart.writeMdatHeader writeMdatHeaderM
  rw [show (x.withMoov o).w.ftyp_size = x.w.ftyp_size from rfl, show (x.withMoov o).s = x.s from rfl,
    show (x.withMoov o).dev = x.dev from rfl, show (x.withMoov o).w.mdat_data_size = x.w.mdat_data_size from rfl,
    show (x.withMoov o).w.getMdatHeaderSize = x.w.getMdatHeaderSize from rfl]
  cases h0 : initialised x.w.ftyp_size with
  | error e => exact ⟨s, o, [], bind_error (pureM_error e _), h, by simp, fun h => absurd rfl h⟩
  | ok ftyp_size =>
    rw [bind_ok (pureM_ok _ _)]
    dsimp only
    cases hm : (x.withMoov o).w.getMoovSize with
    | error e => rw [hm] at hg; exact ⟨s, o, [], bind_error hg, h, by simp, fun h => absurd rfl h⟩
    | ok n =>
      rw [hm] at hg
      rw [bind_ok hg]
      dsimp only
      cases hk : (x.s.seekp x.dev (u64 (ftyp_size + n))).check "FaststartWriter::writeMdatHeader(): ostream::seekp() failed" with
      | error e => exact ⟨s, o, [], bind_error (pureM_error e _), h, by simp, fun h => absurd rfl h⟩
      | ok str =>
        rw [bind_ok (pureM_ok _ _)]
        dsimp only
        rcases hr : BoxHeader.writeF x.dev { offset := u64 (ftyp_size + n), size := u64 (x.w.mdat_data_size + x.w.getMdatHeaderSize), headerSize := x.w.getMdatHeaderSize, type := fourcc "mdat" } str with ⟨r, hd, str'⟩
        cases r with
        | error e => exact ⟨s, o, [], rfl, h, by simp, fun h => absurd rfl h⟩
        | ok m =>
          dsimp only
          cases hc : str'.check "FaststartWriter::writeMdatHeader(): ostream::write() failed" with
          | error e => exact ⟨s, o, [], bind_error (pureM_error e _), h, by simp, fun h => absurd rfl h⟩
          | ok str2 => exact ⟨_, s, bind_ok (pureM_ok _ _), h, rfl⟩

theorem step_sim {s : State} {o : Option Tree} (h : Owns s [] o) (fuel : Nat) (hf : 16 ≤ fuel) (x : FaultyFaststart) (c : Step) :
    Sim (c = .writeFtypBox) ((x.withMoov o).step c) (x.stepM fuel c s) := by
  cases c with
  | writeFtypBox => exact (writeFtypBox_sim h fuel hf x).weaken fun _ => rfl
  | addMdatData data => exact ⟨_, s, rfl, h, rfl⟩
  | getAndUpdateNextTrackID => exact ⟨_, s, rfl, h, rfl⟩
  | appendTrakAndUdtaBoxInfo tracks => exact (append_sim h fuel hf x tracks).weaken False.elim
  | writeMoovBox => exact (writeMoovBox_sim h fuel hf x).weaken False.elim
  | writeMdatHeader => exact (writeMdatHeader_sim h x).weaken False.elim

theorem steps_sim (fuel : Nat) (hf : 16 ≤ fuel) : ∀ (cs : List Step) {s : State} {o : Option Tree}, Owns s [] o → ∀ (x : FaultyFaststart),
    Sim ((x.withMoov o).thrower cs = some .writeFtypBox) ((x.withMoov o).steps cs) (x.stepsM fuel cs s)
  | [], s, o, h, x => ⟨x, s, rfl, h, rfl⟩
  | c :: cs, s, o, h, x => by
    have h1 := step_sim h fuel hf x c
    rw [steps, stepsM]
    cases hs : (x.withMoov o).step c with
    | error e =>
      rw [hs] at h1
      obtain ⟨s', o', st, k1, k2, k3, k4⟩ := h1
      refine ⟨s', o', st, bind_error k1, k2, k3, fun h => ?_⟩
      rw [thrower, hs]
      exact congrArg some (k4 h)
    | ok y =>
      rw [hs] at h1
      obtain ⟨z, s', k1, k2, k3⟩ := h1
      rw [bind_ok k1]
      dsimp only
      rw [thrower, hs]
      dsimp only
      rw [← k3]
      exact steps_sim fuel hf cs k2 z

end FaultyFaststart
end Mp4
