import Verif.Lemmas.Session
import Verif.Spec.SameMovie

/-! # What a track is, as far as a part of it can be told from its calls -/

namespace Mp4

section
variable {σ τ : Type} [MdatWriter σ] [MdatWriter τ]

/-- The part `π` of a track after a call depends on that part only, whatever the writer does (`W` relates the two writers). -/
structure Part (π : Track → Track) (W : σ → τ → Prop) : Prop where
  codec : ∀ t t', π t = π t' → t.codec = t'.codec
  media : ∀ t t' m, π t = π t' → π (t.setMediaTime m) = π (t'.setMediaTime m)
  modify : ∀ t t' f, π t = π t' → π (t.modifyH264 f) = π (t'.modifyH264 f)
  mdat : ∀ t t' a b ts d k, π t = π t' → W a b → π (t.addMdatData a ts d k).1 = π (t'.addMdatData b ts d k).1
  add : ∀ a b d, W a b → W (MdatWriter.addMdatData a d) (MdatWriter.addMdatData b d)

variable {π : Track → Track} {W : σ → τ → Prop} (hP : Part π W)
include hP

/-- Two calls that both throw the same, or return tracks and writers that are related. -/
def PartRel (π : Track → Track) (W : σ → τ → Prop) : Except Err (Track × σ) → Except Err (Track × τ) → Prop
  | .error e, .error e' => e = e'
  | .ok (t, a), .ok (t', b) => π t = π t' ∧ W a b
  | _, _ => False

theorem Part.addNal (t t' : Track) (a : σ) (b : τ) (ht : π t = π t') (hab : W a b) (ts : BitVec 64) (h : Byte) (d : List Byte) (k : Bool) :
    PartRel π W (t.addNal a ts h d k) (t'.addNal b ts h d k) := by
  unfold Track.addNal
  cases nalKind h with
  | vcl => exact ⟨hP.mdat t t' a b ts _ k ht hab, hP.add _ _ _ hab⟩
  | sei => exact ⟨ht, hab⟩
  | sps => exact ⟨hP.modify _ _ _ ht, hab⟩
  | pps => exact ⟨hP.modify _ _ _ ht, hab⟩
  | unsupported => rfl

theorem Part.addAnnexB (ts : BitVec 64) (data : List Byte) (k : Bool) (n : Nat) : ∀ (t t' : Track) (a : σ) (b : τ) (start : Nat),
    π t = π t' → W a b →
    (Track.addAnnexB ts data k n t a start).1 = (Track.addAnnexB ts data k n t' b start).1 ∧
    π (Track.addAnnexB ts data k n t a start).2.1 = π (Track.addAnnexB ts data k n t' b start).2.1 ∧
    W (Track.addAnnexB ts data k n t a start).2.2 (Track.addAnnexB ts data k n t' b start).2.2 := by
  induction n with
  | zero => intro t t' a b start ht hab; exact ⟨rfl, ht, hab⟩
  | succ n ih =>
    intro t t' a b start ht hab
    unfold Track.addAnnexB
    cases hn : find_next_nal_unit data start with
    | error e => exact ⟨rfl, ht, hab⟩
    | ok nu =>
      dsimp only
      have hr := hP.addNal t t' a b ht hab ts nu.header
        (slice data (nu.start + nu.start_code_size) (nu.end_ - nu.start - nu.start_code_size)) k
      cases h1 : t.addNal a ts nu.header (slice data (nu.start + nu.start_code_size) (nu.end_ - nu.start - nu.start_code_size)) k with
      | error e =>
        rw [h1] at hr
        cases h2 : t'.addNal b ts nu.header
          (slice data (nu.start + nu.start_code_size) (nu.end_ - nu.start - nu.start_code_size)) k with
        | error e' => rw [h2] at hr; have he : e = e' := hr; subst he; exact ⟨rfl, ht, hab⟩
        | ok p => rw [h2] at hr; exact absurd hr (by simp [PartRel])
      | ok p =>
        obtain ⟨t1, a1⟩ := p
        rw [h1] at hr
        cases h2 : t'.addNal b ts nu.header
          (slice data (nu.start + nu.start_code_size) (nu.end_ - nu.start - nu.start_code_size)) k with
        | error e' => rw [h2] at hr; exact absurd hr (by simp [PartRel])
        | ok q =>
          obtain ⟨t2, b1⟩ := q
          rw [h2] at hr
          obtain ⟨ht1, hab1⟩ : π t1 = π t2 ∧ W a1 b1 := hr
          dsimp only
          split
          · exact ⟨rfl, ht1, hab1⟩
          · exact ih t1 t2 a1 b1 _ ht1 hab1

theorem Part.addData (t t' : Track) (a : σ) (b : τ) (ht : π t = π t') (hab : W a b) (ts : BitVec 64) (d : List Byte) (k : Bool) :
    (t.addData a ts d k).1 = (t'.addData b ts d k).1 ∧ π (t.addData a ts d k).2.1 = π (t'.addData b ts d k).2.1 ∧
    W (t.addData a ts d k).2.2 (t'.addData b ts d k).2.2 := by
  have ha := hP.addAnnexB ts d k (d.length + 1) t t' a b 0 ht hab
  have hm := hP.mdat t t' a b ts d k ht hab
  unfold Track.addData
  rw [← hP.codec t t' ht]
  cases t.codec with
  | h264 w h c => exact ha
  | _ => exact ⟨rfl, hm, hP.add _ _ _ hab⟩

end

/-! ### Everything but the positions of chunks -/

/-- A chunk without its position. -/
def ChunkInfo.noOffset (c : ChunkInfo) : ChunkInfo := { c with offset := 0 }

/-- The track with all positions forgotten. -/
def Track.noOffsets (t : Track) : Track :=
  { t with chunk_infos := t.chunk_infos.map (·.noOffset), current_chunk_info := t.current_chunk_info.noOffset }

/-- The track with all chunks forgotten. -/
def Track.noChunks (t : Track) : Track := { t with chunk_infos := [], current_chunk_info := {} }

section
variable {σ τ : Type} [MdatWriter σ] [MdatWriter τ]

theorem noOffsets_eq {t t' : Track} (h : t.noOffsets = t'.noOffsets) :
    t' = { t with chunk_infos := t'.chunk_infos, current_chunk_info := t'.current_chunk_info } ∧
    t.chunk_infos.map (·.noOffset) = t'.chunk_infos.map (·.noOffset) ∧
    t.current_chunk_info.number_of_samples = t'.current_chunk_info.number_of_samples ∧
    t.current_chunk_info.initialized = t'.current_chunk_info.initialized := by
  obtain ⟨timescale, d1, d2, d3, media, id, fin, sizes, infos, cur, prev, durs, keys, codec⟩ := t
  obtain ⟨timescale', d1', d2', d3', media', id', fin', sizes', infos', cur', prev', durs', keys', codec'⟩ := t'
  unfold Track.noOffsets ChunkInfo.noOffset at h
  simp only [Track.mk.injEq, ChunkInfo.mk.injEq] at h
  obtain ⟨rfl, rfl, rfl, rfl, rfl, rfl, rfl, rfl, h9, ⟨-, h10, h11⟩, rfl, rfl, rfl, rfl⟩ := h
  exact ⟨rfl, h9, h10, h11⟩

theorem noOffsets_intro (t : Track) (cs : List ChunkInfo) (c : ChunkInfo) (h1 : t.chunk_infos.map (·.noOffset) = cs.map (·.noOffset))
    (h2 : t.current_chunk_info.number_of_samples = c.number_of_samples) (h3 : t.current_chunk_info.initialized = c.initialized) :
    t.noOffsets = ({ t with chunk_infos := cs, current_chunk_info := c } : Track).noOffsets := by
  unfold Track.noOffsets
  dsimp only
  rw [h1]
  unfold ChunkInfo.noOffset
  rw [h2, h3]

theorem noOffsets_part : Part (σ := σ) (τ := τ) Track.noOffsets (fun _ _ => True) where
  codec t t' h := by obtain ⟨h1, -⟩ := noOffsets_eq h; rw [h1]
  media t t' m h := by
    obtain ⟨h1, h2, h3, h4⟩ := noOffsets_eq h
    rw [h1]
    exact noOffsets_intro (t.setMediaTime m) t'.chunk_infos t'.current_chunk_info h2 h3 h4
  modify t t' f h := by
    obtain ⟨h1, h2, h3, h4⟩ := noOffsets_eq h
    rw [h1]
    have e : ({ t with chunk_infos := t'.chunk_infos, current_chunk_info := t'.current_chunk_info } : Track).modifyH264 f =
        { t.modifyH264 f with chunk_infos := t'.chunk_infos, current_chunk_info := t'.current_chunk_info } := by
      unfold Track.modifyH264; dsimp only; split <;> rfl
    rw [e]
    have e1 : (t.modifyH264 f).chunk_infos = t.chunk_infos := by unfold Track.modifyH264; split <;> rfl
    have e2 : (t.modifyH264 f).current_chunk_info = t.current_chunk_info := by unfold Track.modifyH264; split <;> rfl
    exact noOffsets_intro _ _ _ (by rw [e1, h2]) (by rw [e2, h3]) (by rw [e2, h4])
  mdat t t' a b ts d k h _ := by
    obtain ⟨h1, h2, h3, h4⟩ := noOffsets_eq h
    rw [h1]
    refine noOffsets_intro (t.addMdatData a ts d k).1 t'.chunk_infos _ h2 ?_ ?_
    · unfold Track.addMdatData
      dsimp only
      rw [h4]
      split <;> rw [h3]
    · unfold Track.addMdatData
      dsimp only
      rw [h4]
      split
      · rename_i hi; rw [h4, hi]
      · rfl
  add _ _ _ _ := trivial

theorem noOffsets_terminate {t t' : Track} (h : t.noOffsets = t'.noOffsets) :
    t.terminateCurrentChunk.noOffsets = t'.terminateCurrentChunk.noOffsets := by
  obtain ⟨h1, h2, h3, h4⟩ := noOffsets_eq h
  unfold Track.terminateCurrentChunk
  rw [← h3]
  split
  · rw [h1]
    refine noOffsets_intro { t with chunk_infos := t.chunk_infos ++ [t.current_chunk_info], current_chunk_info := _ } _ _ ?_ rfl rfl
    rw [List.map_append, List.map_append, h2]
    simp [ChunkInfo.noOffset, h3, h4]
  · exact h

theorem noOffsets_finalize {t t' : Track} (h : t.noOffsets = t'.noOffsets) : t.finalize.noOffsets = t'.finalize.noOffsets := by
  obtain ⟨h1, h2, h3, h4⟩ := noOffsets_eq h
  unfold Track.finalize
  rw [show t'.finalized = t.finalized by rw [h1]]
  split
  · exact h
  · rw [← h3]
    rw [show t'.sample_durations = t.sample_durations by rw [h1], show t'.mdat_sample_sizes = t.mdat_sample_sizes by rw [h1],
      show t'.durationInTimescale = t.durationInTimescale by rw [h1], show t'.prev_timestamp = t.prev_timestamp by rw [h1]]
    dsimp only
    generalize (if t.mdat_sample_sizes = [] then t.sample_durations
      else t.sample_durations ++ [(t.durationInTimescale - t.prev_timestamp).setWidth 32]) = ds
    have hx : (if t.current_chunk_info.number_of_samples > 0 then t.chunk_infos ++ [t.current_chunk_info]
        else t.chunk_infos).map (·.noOffset) =
        (if t.current_chunk_info.number_of_samples > 0 then t'.chunk_infos ++ [t'.current_chunk_info]
        else t'.chunk_infos).map (·.noOffset) := by
      split
      · rw [List.map_append, List.map_append, h2]
        simp [ChunkInfo.noOffset, h3, h4]
      · exact h2
    generalize (if t.current_chunk_info.number_of_samples > 0 then t.chunk_infos ++ [t.current_chunk_info]
        else t.chunk_infos) = x at hx
    generalize (if t.current_chunk_info.number_of_samples > 0 then t'.chunk_infos ++ [t'.current_chunk_info]
        else t'.chunk_infos) = y at hx
    rw [h1]
    exact noOffsets_intro { t with finalized := true, chunk_infos := x, sample_durations := ds } y _ hx h3 h4

theorem noChunks_eq {t t' : Track} (h : t.noChunks = t'.noChunks) :
    t' = { t with chunk_infos := t'.chunk_infos, current_chunk_info := t'.current_chunk_info } := by
  obtain ⟨timescale, d1, d2, d3, media, id, fin, sizes, infos, cur, prev, durs, keys, codec⟩ := t
  obtain ⟨timescale', d1', d2', d3', media', id', fin', sizes', infos', cur', prev', durs', keys', codec'⟩ := t'
  unfold Track.noChunks at h
  simp only [Track.mk.injEq] at h
  obtain ⟨rfl, rfl, rfl, rfl, rfl, rfl, rfl, rfl, -, -, rfl, rfl, rfl, rfl⟩ := h
  rfl

theorem noChunks_part (W : σ → τ → Prop) (hW : ∀ a b d, W a b → W (MdatWriter.addMdatData a d) (MdatWriter.addMdatData b d)) :
    Part (σ := σ) (τ := τ) Track.noChunks W where
  codec t t' h := by rw [noChunks_eq h]
  media t t' m h := by rw [noChunks_eq h]; rfl
  modify t t' f h := by
    rw [noChunks_eq h]
    unfold Track.modifyH264
    dsimp only
    split <;> rfl
  mdat t t' a b ts d k h _ := by rw [noChunks_eq h]; rfl
  add := hW

theorem noChunks_terminate (t : Track) : t.terminateCurrentChunk.noChunks = t.noChunks := by
  unfold Track.terminateCurrentChunk
  split <;> rfl

theorem noChunks_finalize {t t' : Track} (h : t.noChunks = t'.noChunks) : t.finalize.noChunks = t'.finalize.noChunks := by
  have h1 := noChunks_eq h
  unfold Track.finalize
  rw [show t'.finalized = t.finalized by rw [h1]]
  split
  · exact h
  · rw [h1]; rfl

end

/-! ### Programs -/

section
variable {σ τ : Type} [TrackWriter σ] [TrackWriter τ]

theorem new_ok_iff (p : TrackParameters) (codec : Codec) :
    (p.track_id = 0 ∧ ∃ e, Track.new p codec = .error e) ∨ (p.track_id ≠ 0 ∧ ∃ t, Track.new p codec = .ok t) := by
  unfold Track.new
  by_cases h : p.track_id = 0
  · exact .inl ⟨h, _, by rw [if_pos h]⟩
  · exact .inr ⟨h, _, by rw [if_neg h]⟩

/-- The state of track `i` after a program is that of the only track of the program that makes the calls on it. -/
theorem callsOn_reached (i : Nat) (cs : List Call) : ∀ (s : Session σ) (s' : Session τ),
    s'.tracks.map (·.noOffsets) = ((s.tracks.map (·.noOffsets))[i]?).toList →
    (s'.calls (Spec.callsOn i s.tracks.length cs)).tracks.map (·.noOffsets) =
      (((s.calls cs).tracks.map (·.noOffsets))[i]?).toList := by
  induction cs with
  | nil => intro s s' h; exact h
  | cons c cs ih =>
    intro s s' h
    have hP := noOffsets_part (σ := σ) (τ := τ)
    -- a call on track `j` of both programs, or of the first only
    have on : ∀ (j : Nat) (c0 : Call) (g : Track → Session σ → Track × σ) (g' : Track → Session τ → Track × τ),
        s.call c = (match s.tracks[j]? with | none => s | some t => ⟨s.tracks.set j (g t s).1, (g t s).2⟩) →
        s'.call c0 = (match s'.tracks[0]? with | none => s' | some t => ⟨s'.tracks.set 0 (g' t s').1, (g' t s').2⟩) →
        (∀ t t', t.noOffsets = t'.noOffsets → (g t s).1.noOffsets = (g' t' s').1.noOffsets) →
        (s'.calls (if j = i ∧ i < s.tracks.length then c0 :: Spec.callsOn i s.tracks.length cs
          else Spec.callsOn i s.tracks.length cs)).tracks.map (·.noOffsets) =
          ((((s.call c).calls cs).tracks.map (·.noOffsets))[i]?).toList := by
      intro j c0 g g' h1 h2 h3
      have hlen : (s.call c).tracks.length = s.tracks.length := by
        rw [h1]; split <;> simp
      rw [← hlen]
      split
      · rename_i hji
        obtain ⟨rfl, hi⟩ := hji
        rw [hlen] at hi
        rw [Session.calls]
        apply ih
        rw [h1, h2]
        rw [List.getElem?_eq_getElem hi]
        rw [List.getElem?_map, List.getElem?_eq_getElem hi] at h
        cases hs' : s'.tracks with
        | nil => rw [hs'] at h; cases h
        | cons t' rest =>
          rw [hs'] at h
          simp only [List.map_cons, Option.map_some, Option.toList_some, List.cons.injEq, List.map_eq_nil_iff] at h
          obtain ⟨ht, hr⟩ := h
          subst hr
          have := h3 _ _ ht.symm
          simp [hi, this]
      · rename_i hji
        apply ih
        rw [h, h1]
        cases hj : s.tracks[j]? with
        | none => rfl
        | some t =>
          dsimp only
          by_cases e : j = i
          · subst e
            have : j < s.tracks.length := by
              rcases Nat.lt_or_ge j s.tracks.length with h | h
              · exact h
              · rw [List.getElem?_eq_none h] at hj; cases hj
            exact absurd ⟨rfl, by rw [hlen]; exact this⟩ hji
          · rw [List.map_set, List.getElem?_set_ne e]
    rw [Session.calls]
    cases c with
    | getAndUpdateNextTrackID =>
      rw [Spec.callsOn]
      exact ih (s.call .getAndUpdateNextTrackID) s' h
    | newTrack p codec =>
      rw [Spec.callsOn]
      rcases new_ok_iff p codec with ⟨h0, e, he⟩ | ⟨h0, t, ht⟩
      · rw [if_pos h0]
        have : s.call (.newTrack p codec) = s := by unfold Session.call; dsimp only; rw [he]
        rw [this]
        exact ih s s' h
      · rw [if_neg h0]
        have hc : s.call (.newTrack p codec) = ⟨s.tracks ++ [t], s.writer⟩ := by unfold Session.call; dsimp only; rw [ht]
        have hc' : s'.call (.newTrack p codec) = ⟨s'.tracks ++ [t], s'.writer⟩ := by unfold Session.call; dsimp only; rw [ht]
        have hl : (s.call (.newTrack p codec)).tracks.length = s.tracks.length + 1 := by rw [hc]; simp
        rw [← hl]
        split
        · rename_i hki
          rw [Session.calls]
          apply ih
          rw [hc, hc']
          dsimp only
          rw [List.map_append, h, ← hki]
          simp
        · rename_i hki
          apply ih
          rw [h, hc]
          dsimp only
          rw [List.map_append]
          congr 1
          rcases Nat.lt_or_ge i s.tracks.length with hi | hi
          · rw [List.getElem?_append_left (by simpa using hi)]
          · rw [List.getElem?_eq_none (by simpa using hi), List.getElem?_eq_none (by simp; omega)]
    | addData j ts d k =>
      rw [Spec.callsOn]
      exact on j (.addData 0 ts d k) (fun t s => ((t.addData s.writer ts d k).2.1, (t.addData s.writer ts d k).2.2))
        (fun t s => ((t.addData s.writer ts d k).2.1, (t.addData s.writer ts d k).2.2)) rfl rfl
        (fun t t' h => (hP.addData t t' _ _ h trivial ts d k).2.1)
    | terminateCurrentChunk j =>
      rw [Spec.callsOn]
      exact on j (.terminateCurrentChunk 0) (fun t s => (t.terminateCurrentChunk, s.writer))
        (fun t s => (t.terminateCurrentChunk, s.writer)) rfl rfl (fun t t' h => noOffsets_terminate h)
    | setMediaTime j m =>
      rw [Spec.callsOn]
      exact on j (.setMediaTime 0 m) (fun t s => (t.setMediaTime m, s.writer))
        (fun t s => (t.setMediaTime m, s.writer)) rfl rfl (fun t t' h => hP.media t t' m h)

/-- What a program does without the calls that end chunks. -/
theorem noChunks_reached (cs : List Call) : ∀ (s s' : Session σ), s.tracks.map (·.noChunks) = s'.tracks.map (·.noChunks) →
    s.writer = s'.writer →
    (s.calls cs).tracks.map (·.noChunks) = (s'.calls (cs.filter fun c => !Spec.endsChunk c)).tracks.map (·.noChunks) ∧
    (s.calls cs).writer = (s'.calls (cs.filter fun c => !Spec.endsChunk c)).writer := by
  induction cs with
  | nil => intro s s' h hw; exact ⟨h, hw⟩
  | cons c cs ih =>
    intro s s' h hw
    have hP := noChunks_part (σ := σ) (τ := σ) (· = ·) (fun a b d h => by rw [h])
    have hn : ∀ j : Nat, (s.tracks[j]?).map (·.noChunks) = (s'.tracks[j]?).map (·.noChunks) := by
      intro j; rw [← List.getElem?_map, ← List.getElem?_map, h]
    rw [Session.calls]
    cases c with
    | getAndUpdateNextTrackID =>
      rw [List.filter_cons_of_pos (by rfl), Session.calls]
      exact ih _ _ h (by show (TrackWriter.getAndUpdateNextTrackID s.writer).2 = _; rw [hw]; rfl)
    | newTrack p codec =>
      rw [List.filter_cons_of_pos (by rfl), Session.calls]
      unfold Session.call
      dsimp only
      cases Track.new p codec with
      | error e => exact ih _ _ h hw
      | ok t => exact ih _ _ (by simp [h]) hw
    | addData j ts d k =>
      rw [List.filter_cons_of_pos (by rfl), Session.calls]
      unfold Session.call
      dsimp only
      have hj := hn j
      cases h1 : s.tracks[j]? with
      | none =>
        rw [h1] at hj
        cases h2 : s'.tracks[j]? with
        | none => exact ih _ _ h hw
        | some t' => rw [h2] at hj; cases hj
      | some t =>
        rw [h1] at hj
        cases h2 : s'.tracks[j]? with
        | none => rw [h2] at hj; cases hj
        | some t' =>
          rw [h2] at hj
          have ht : t.noChunks = t'.noChunks := Option.some.inj hj
          obtain ⟨-, k1, k2⟩ := hP.addData t t' s.writer s'.writer ht hw ts d k
          exact ih _ _ (by dsimp only; rw [List.map_set, List.map_set, h, k1]) k2
    | terminateCurrentChunk j =>
      rw [List.filter_cons_of_neg (by simp [Spec.endsChunk])]
      unfold Session.call
      dsimp only
      cases h1 : s.tracks[j]? with
      | none => exact ih _ _ h hw
      | some t =>
        refine ih _ _ ?_ hw
        dsimp only
        rw [List.map_set, noChunks_terminate, ← h]
        apply List.ext_getElem?
        intro n
        by_cases e : j = n
        · subst e
          rw [List.getElem?_set_self' , List.getElem?_map, h1]
          rfl
        · rw [List.getElem?_set_ne e]
    | setMediaTime j m =>
      rw [List.filter_cons_of_pos (by rfl), Session.calls]
      unfold Session.call
      dsimp only
      have hj := hn j
      cases h1 : s.tracks[j]? with
      | none =>
        rw [h1] at hj
        cases h2 : s'.tracks[j]? with
        | none => exact ih _ _ h hw
        | some t' => rw [h2] at hj; cases hj
      | some t =>
        rw [h1] at hj
        cases h2 : s'.tracks[j]? with
        | none => rw [h2] at hj; cases hj
        | some t' =>
          rw [h2] at hj
          have ht : t.noChunks = t'.noChunks := Option.some.inj hj
          have k1 := hP.media t t' m ht
          exact ih _ _ (by dsimp only; rw [List.map_set, List.map_set, h, k1]) hw

end
end Mp4
