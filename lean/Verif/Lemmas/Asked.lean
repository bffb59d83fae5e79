import Verif.Lemmas.Program
import Verif.Spec.Movie

/-! # What a track holds after a program: timing of its samples, parameters -/

namespace Mp4

/-! ### Timing -/

theorem durations_snoc (E x : BitVec 64) (l : List (BitVec 64)) :
    Spec.durations E (l ++ [x]) = Spec.durations x l ++ [(E - x).setWidth 32] := by
  induction l with
  | nil => rfl
  | cons t l ih =>
    cases l with
    | nil => rfl
    | cons u l =>
      rw [List.cons_append, List.cons_append, Spec.durations, ← List.cons_append, ih, Spec.durations]
      rfl

theorem keyNumbers_snoc (ss : List Sample) (x : Sample) : ∀ n, Spec.keyNumbers n (ss ++ [x]) =
    Spec.keyNumbers n ss ++ if x.key then [n + ss.length] else [] := by
  induction ss with
  | nil => intro n; simp [Spec.keyNumbers]
  | cons s ss ih =>
    intro n
    rw [List.cons_append, Spec.keyNumbers, ih, Spec.keyNumbers, List.append_assoc, List.length_cons]
    simp only [Nat.add_assoc, Nat.add_comm 1]

/-- What a track that is not finalized yet knows about its samples `ss`. -/
def Timed (ss : List Sample) (t : Track) : Prop :=
  t.finalized = false ∧ t.mdat_sample_sizes = (ss.map fun s => BitVec.ofNat 32 s.data.length) ∧
  (∀ E, Spec.durations E (ss.map (·.timestamp)) =
    t.sample_durations ++ if ss = [] then [] else [(E - t.prev_timestamp).setWidth 32]) ∧
  (t.key_sample_numbers = if t.codec.handler = .vide then (Spec.keyNumbers 1 ss).map (BitVec.ofNat 32) else []) ∧
  t.chunk_infos.length + (if t.current_chunk_info.number_of_samples > 0 then 1 else 0) ≤ ss.length

theorem Timed.fresh {p : TrackParameters} {c : Codec} {t : Track} (h : Track.new p c = .ok t) : Timed [] t := by
  unfold Track.new at h
  split at h
  · cases h
  · cases h
    refine ⟨rfl, rfl, fun E => rfl, ?_, by dsimp only; rw [if_neg (by decide)]; exact Nat.le_refl 0⟩
    dsimp only
    split <;> rfl

section
variable {σ : Type} [MdatWriter σ]

theorem Timed.sample {ss : List Sample} {t : Track} (h : Timed ss t) (w : σ) (x : Sample) :
    Timed (ss ++ [x]) (t.addMdatData w x.timestamp x.data x.key).1 := by
  obtain ⟨h1, h2, h3, h4, h5⟩ := h
  refine ⟨h1, ?_, ?_, ?_, ?_⟩
  rotate_left 3
  · show t.chunk_infos.length + (if _ then 1 else 0) ≤ _
    rw [List.length_append, List.length_singleton]
    split <;> omega
  · show t.mdat_sample_sizes ++ _ = _
    rw [h2]; simp
  · intro E
    rw [List.map_append, List.map_cons, List.map_nil, durations_snoc, if_neg (by simp)]
    have h5 := h3 x.timestamp
    show _ = (if t.mdat_sample_sizes = [] then _ else _) ++ _
    rw [h5, h2]
    by_cases hs : ss = []
    · subst hs
      rw [if_pos rfl, List.map_nil, if_pos rfl, List.append_nil]
      rfl
    · rw [if_neg hs, if_neg (by simpa using hs)]
      rfl
  · show (if t.codec.handler = .vide ∧ x.key = true then t.key_sample_numbers ++
        [BitVec.ofNat 32 (t.mdat_sample_sizes ++ [BitVec.ofNat 32 x.data.length]).length] else t.key_sample_numbers) =
      if t.codec.handler = .vide then _ else _
    rw [keyNumbers_snoc, h4, h2]
    by_cases hv : t.codec.handler = .vide
    · rw [if_pos hv, if_pos hv]
      by_cases hk : x.key = true
      · rw [if_pos ⟨hv, hk⟩, if_pos hk]
        simp [Nat.add_comm]
      · rw [if_neg (fun c => hk c.2), if_neg hk]
        simp
    · rw [if_neg hv, if_neg hv, if_neg (fun c => hv c.1)]

theorem Timed.terminate {ss : List Sample} {t : Track} (h : Timed ss t) : Timed ss t.terminateCurrentChunk := by
  obtain ⟨g1, g2, g3, g4, g5, g6, -⟩ := terminate_fields t
  unfold Timed
  rw [g1, g2, g3, g4, g5, g6]
  obtain ⟨h1, h2, h3, h4, h5⟩ := h
  refine ⟨h1, h2, h3, h4, ?_⟩
  unfold Track.terminateCurrentChunk
  by_cases hc : t.current_chunk_info.number_of_samples > 0
  · rw [if_pos hc] at h5 ⊢
    dsimp only
    rw [if_neg (by decide), List.length_append, List.length_singleton]
    exact h5
  · rw [if_neg hc, if_neg hc]
    rw [if_neg hc] at h5
    exact h5

theorem Timed.configure {ss : List Sample} {t : Track} (h : Timed ss t) (c : Codec) (m : BitVec 64)
    (hc : c.handler = t.codec.handler) : Timed ss { t with codec := c, media_time := m } := by
  obtain ⟨h1, h2, h3, h4, h5⟩ := h
  exact ⟨h1, h2, h3, by dsimp only; rw [hc]; exact h4, h5⟩

/-- Every track of a program, and no event for a track that does not exist. -/
theorem Reached.timed {R : σ → σ → Prop} {w0 : σ} {s : Session σ} {es : List Event} (h : Session.Reached R w0 s es) :
    (∀ i, s.tracks.length ≤ i → Spec.callsOf i es = []) ∧
    ∀ (i : Nat) (t : Track), s.tracks[i]? = some t → Timed (Spec.samplesOf i es) t := by
  induction h with
  | start => exact ⟨fun _ _ => rfl, by simp⟩
  | @create s es p c t hr ht ih =>
    obtain ⟨i2, i3⟩ := ih
    refine ⟨fun i hi => i2 i (by simp at hi; omega), ?_⟩
    intro i u hu
    by_cases hi : i < s.tracks.length
    · rw [List.getElem?_append_left hi] at hu
      exact i3 i u hu
    · rw [List.getElem?_append_right (by omega)] at hu
      have hui : u = t := by
        rcases hk : i - s.tracks.length with _ | k
        · rw [hk] at hu; simpa using hu.symm
        · rw [hk] at hu; simp at hu
      subst hui
      rw [Spec.samplesOf, i2 i (by omega)]
      exact Timed.fresh ht
  | silent w hr hw ih => exact ih
  | @sample s es i t x hr ht ih =>
    obtain ⟨i2, i3⟩ := ih
    have hlt : i < s.tracks.length := (List.getElem?_eq_some_iff.mp ht).1
    refine ⟨?_, ?_⟩
    · intro j hj
      rw [List.length_set] at hj
      rw [Spec.callsOf_append, i2 j hj]
      simp [Spec.callsOf, show i ≠ j by omega]
    · intro j u hu
      rw [Spec.samplesOf_append]
      by_cases hj : i = j
      · subst hj
        rw [List.getElem?_set_self hlt] at hu
        cases hu
        have : Spec.samplesOf i [.sample i x] = [x] := by simp [Spec.samplesOf, Spec.callsOf, Spec.samples]
        rw [this]
        exact (i3 i t ht).sample s.writer x
      · rw [List.getElem?_set_ne hj] at hu
        have : Spec.samplesOf j [.sample i x] = [] := by simp [Spec.samplesOf, Spec.callsOf, Spec.samples, hj]
        rw [this, List.append_nil]
        exact i3 j u hu
  | @terminate s es i t hr ht ih =>
    obtain ⟨i2, i3⟩ := ih
    have hlt : i < s.tracks.length := (List.getElem?_eq_some_iff.mp ht).1
    refine ⟨?_, ?_⟩
    · intro j hj
      rw [List.length_set] at hj
      rw [Spec.callsOf_append, i2 j hj]
      simp [Spec.callsOf, show i ≠ j by omega]
    · intro j u hu
      have h0 : Spec.samplesOf j [.terminate i] = [] := by
        simp only [Spec.samplesOf, Spec.callsOf]; split <;> rfl
      rw [Spec.samplesOf_append, h0, List.append_nil]
      by_cases hj : i = j
      · subst hj
        rw [List.getElem?_set_self hlt] at hu
        cases hu
        exact (i3 i t ht).terminate
      · rw [List.getElem?_set_ne hj] at hu
        exact i3 j u hu
  | @configure s es i t c m hr ht hc ih =>
    obtain ⟨i2, i3⟩ := ih
    have hlt : i < s.tracks.length := (List.getElem?_eq_some_iff.mp ht).1
    refine ⟨by simpa using i2, ?_⟩
    intro j u hu
    by_cases hj : i = j
    · subst hj
      rw [List.getElem?_set_self hlt] at hu
      cases hu
      exact (i3 i t ht).configure c m hc
    · rw [List.getElem?_set_ne hj] at hu
      exact i3 j u hu

end

/-- A finalized track. -/
theorem Timed.finalize {ss : List Sample} {t : Track} (h : Timed ss t) :
    t.finalize.mdat_sample_sizes = (ss.map fun s => BitVec.ofNat 32 s.data.length) ∧
    t.finalize.sample_durations = Spec.durations t.durationInTimescale (ss.map (·.timestamp)) ∧
    t.finalize.key_sample_numbers = (if t.codec.handler = .vide then (Spec.keyNumbers 1 ss).map (BitVec.ofNat 32) else []) ∧
    t.finalize.codec = t.codec := by
  obtain ⟨h1, h2, h3, h4, -⟩ := h
  obtain ⟨g1, g2, g3⟩ := finalize_fields t
  refine ⟨by rw [g1]; exact h2, ?_, by rw [g2]; exact h4, g3⟩
  unfold Track.finalize
  rw [h1, h3]
  simp only [Bool.false_eq_true, if_false]
  by_cases hs : ss = []
  · subst hs; rw [if_pos rfl, if_pos (by rw [h2]; rfl), List.append_nil]
  · rw [if_neg hs, if_neg (by rw [h2]; simpa using hs)]

/-- Every chunk has a sample. -/
theorem Timed.chunks {ss : List Sample} {t : Track} (h : Timed ss t) : t.finalize.chunk_infos.length ≤ ss.length := by
  obtain ⟨h1, h2, h3, h4, h5⟩ := h
  unfold Track.finalize
  rw [h1]
  dsimp only [Bool.false_eq_true]
  rw [if_neg (by decide)]
  dsimp only
  split
  · rename_i hc
    rw [if_pos hc] at h5
    rw [List.length_append, List.length_singleton]; exact h5
  · rename_i hc
    rw [if_neg hc] at h5
    exact h5

theorem durations_length (E : BitVec 64) (l : List (BitVec 64)) : (Spec.durations E l).length = l.length := by
  induction l with
  | nil => rfl
  | cons t l ih =>
    cases l with
    | nil => rfl
    | cons u l => rw [Spec.durations, List.length_cons, ih]; rfl

/-! ### Parameters -/

theorem configured_append (A : List (List Byte)) : ∀ (cfg : H264Config) (B : List (List Byte)),
    Spec.configured (Spec.configured cfg A) B = Spec.configured cfg (A ++ B) := by
  induction A with
  | nil => intro cfg B; rw [configured_nil]; rfl
  | cons n A ih =>
    intro cfg B
    by_cases h7 : Spec.nalType n = 7
    · rw [← configured_sps _ _ _ h7, ih, List.cons_append, ← configured_sps _ _ _ h7]
    · by_cases h8 : Spec.nalType n = 8
      · rw [← configured_pps _ _ _ h8, ih, List.cons_append, ← configured_pps _ _ _ h8]
      · rw [← configured_other _ _ _ h7 h8, ih, List.cons_append, ← configured_other _ _ _ h7 h8]

/-- The members of a track's class after the calls made on it. -/
def CodecFollows (a : Spec.TrackAsked) (c : Codec) : Prop :=
  match a.codec with
  | .h264 w h cfg => ∃ cfg', c = .h264 w h cfg' ∧ Spec.ConfigAfter a.buffers cfg cfg'
  | _ => c = a.codec

/-- A track is what was asked for. -/
def Follows (a : Spec.TrackAsked) (t : Track) : Prop :=
  t.timescale = Spec.timescaleOf a ∧ t.durationInTimescale = a.params.durationInTimescale ∧
  t.durationInMvhdTimescale = a.params.durationInMvhdTimescale ∧ t.time_from_epoch = a.params.time_from_epoch ∧
  t.media_time = a.mediaTime ∧ t.track_id = a.params.track_id ∧ CodecFollows a t.codec

theorem Follows.fresh {p : TrackParameters} {c : Codec} {t : Track} (h : Track.new p c = .ok t) :
    Follows ⟨p, c, p.media_time, []⟩ t := by
  unfold Track.new at h
  split at h
  · cases h
  · cases h
    refine ⟨rfl, rfl, rfl, rfl, rfl, rfl, ?_⟩
    unfold CodecFollows
    cases c <;> try exact rfl
    refine ⟨_, rfl, ?_⟩
    intro uss hb _
    have : uss = [] := by cases uss with
      | nil => rfl
      | cons _ _ => cases hb
    subst this
    exact (configured_nil _).symm

section
variable {σ : Type} [MdatWriter σ]

theorem addSamples_fields (ts : BitVec 64) (key : Bool) (ss : List (List Byte)) : ∀ (t : Track) (w : σ),
    (t.addSamples w ts key ss).1.timescale = t.timescale ∧
    (t.addSamples w ts key ss).1.durationInTimescale = t.durationInTimescale ∧
    (t.addSamples w ts key ss).1.durationInMvhdTimescale = t.durationInMvhdTimescale ∧
    (t.addSamples w ts key ss).1.time_from_epoch = t.time_from_epoch ∧
    (t.addSamples w ts key ss).1.media_time = t.media_time ∧
    (t.addSamples w ts key ss).1.track_id = t.track_id := by
  induction ss with
  | nil => intro t w; exact ⟨rfl, rfl, rfl, rfl, rfl, rfl⟩
  | cons s ss ih => intro t w; exact ih _ _

theorem Follows.addData {a : Spec.TrackAsked} {t : Track} (h : Follows a t) (w : σ) (ts : BitVec 64) (data : List Byte) (key : Bool) :
    Follows { a with buffers := a.buffers ++ [data] } (t.addData w ts data key).2.1 := by
  obtain ⟨ss, c, -, hsame, hres⟩ := addData_shape t w ts data key
  obtain ⟨f1, f2, f3, f4, f5, f6⟩ := addSamples_fields ts key ss t w
  obtain ⟨h1, h2, h3, h4, h5, h6, h7⟩ := h
  have e : (t.addData w ts data key).2.1 = { (t.addSamples w ts key ss).1 with codec := c } := by rw [hres]
  have hcodec : c = (t.addData w ts data key).2.1.codec := by rw [e]
  refine ⟨by rw [e]; exact f1.trans h1, by rw [e]; exact f2.trans h2, by rw [e]; exact f3.trans h3, by rw [e]; exact f4.trans h4,
    by rw [e]; exact f5.trans h5, by rw [e]; exact f6.trans h6, ?_⟩
  rw [← hcodec]
  clear e f1 f2 f3 f4 f5 f6 hres
  unfold CodecFollows at h7 ⊢
  dsimp only
  cases hac : a.codec with
  | h264 width height cfg =>
    rw [hac] at h7
    obtain ⟨cfg', k1, k2⟩ := h7
    dsimp only
    rw [k1] at hsame
    have hw : ∃ cfg2, c = .h264 width height cfg2 := by
      obtain ⟨ss', cfg2, -, hs⟩ := addAnnexB_shape ts data key (data.length + 1) t w 0 width height cfg' k1
      refine ⟨cfg2, ?_⟩
      rw [hcodec, Track.addData, k1]
      dsimp only
      rw [hs]
    obtain ⟨cfg2, hc2⟩ := hw
    refine ⟨cfg2, hc2, ?_⟩
    intro uss hb hu
    rcases List.eq_nil_or_concat uss with rfl | ⟨uss0, us, rfl⟩
    · cases hb' : a.buffers <;> rw [hb'] at hb <;> cases hb
    · rw [List.concat_eq_append, List.map_append, List.map_cons, List.map_nil] at hb
      rw [List.concat_eq_append] at hu
      obtain ⟨hb1, hb2⟩ := List.append_inj' hb rfl
      cases hb2
      obtain ⟨u1, u2, u3⟩ := hu us (by simp)
      have h48 := C48_framing t w ts key us width height cfg' k1 u1 u2 u3
      have hcfg : cfg2 = Spec.configured cfg' (Spec.accepted us) := by
        have : c = .h264 width height (Spec.configured cfg' (Spec.accepted us)) := by
          rw [hcodec, h48]; rfl
        rw [hc2] at this
        injection this
      rw [hcfg, k2 uss0 hb1 (fun v hv => hu v (by simp [hv])), configured_append, List.concat_eq_append, List.flatMap_append]
      simp
  | _ =>
    rw [hac] at h7
    dsimp only at h7 ⊢
    rw [hcodec, Track.addData, h7]
    exact h7

end

/-- The tracks of a program are those it asked for. -/
def AllFollow (as : List Spec.TrackAsked) (ts : List Track) : Prop :=
  as.length = ts.length ∧ ∀ (i : Nat) (a : Spec.TrackAsked) (t : Track), as[i]? = some a → ts[i]? = some t → Follows a t

theorem AllFollow.modify {as : List Spec.TrackAsked} {ts : List Track} (h : AllFollow as ts) (i : Nat)
    (f : Spec.TrackAsked → Spec.TrackAsked) (t u : Track) (ht : ts[i]? = some t) (hf : ∀ a, Follows a t → Follows (f a) u) :
    AllFollow (as.modify i f) (ts.set i u) := by
  refine ⟨by rw [List.length_modify, List.length_set]; exact h.1, ?_⟩
  intro j a v ha hv
  by_cases hj : i = j
  · subst hj
    rw [List.getElem?_set_self (List.getElem?_eq_some_iff.mp ht).1] at hv
    cases hv
    rw [List.getElem?_modify_eq] at ha
    cases hai : as[i]? with
    | none => rw [hai] at ha; cases ha
    | some b =>
      rw [hai] at ha
      cases ha
      exact hf b (h.2 i b t hai ht)
  · rw [List.getElem?_set_ne hj] at hv
    rw [List.getElem?_modify_ne _ _ hj] at ha
    exact h.2 j a v ha hv

theorem AllFollow.modify_none {as : List Spec.TrackAsked} {ts : List Track} (h : AllFollow as ts) (i : Nat)
    (f : Spec.TrackAsked → Spec.TrackAsked) (ht : ts[i]? = none) : AllFollow (as.modify i f) ts := by
  have hle : as.length ≤ i := by rw [h.1]; exact List.getElem?_eq_none_iff.mp ht
  rw [List.modify_eq_self (by omega)]
  exact h

theorem Session.calls_asked {σ : Type} [TrackWriter σ] (calls : List Call) : ∀ (s : Session σ) (as : List Spec.TrackAsked),
    AllFollow as s.tracks → AllFollow (calls.foldl Spec.ask as) (s.calls calls).tracks := by
  induction calls with
  | nil => intro s as h; exact h
  | cons c calls ih =>
    intro s as h
    rw [List.foldl_cons, Session.calls]
    apply ih
    cases c with
    | getAndUpdateNextTrackID => exact h
    | newTrack p c =>
      rw [Session.call, Spec.ask]
      by_cases hid : p.track_id = 0
      · have hn : Track.new p c = .error (.exc "invalid track_id=0") := by unfold Track.new; rw [if_pos hid]
        rw [if_pos hid, hn]
        exact h
      · have hn : ∃ t, Track.new p c = .ok t := by
          unfold Track.new; rw [if_neg hid]; exact ⟨_, rfl⟩
        obtain ⟨t, hn⟩ := hn
        rw [if_neg hid, hn]
        dsimp only
        refine ⟨by simp [h.1], ?_⟩
        intro j a v ha hv
        by_cases hj : j < s.tracks.length
        · rw [List.getElem?_append_left hj] at hv
          rw [List.getElem?_append_left (by rw [h.1]; exact hj)] at ha
          exact h.2 j a v ha hv
        · rw [List.getElem?_append_right (by omega)] at hv
          rw [List.getElem?_append_right (by rw [h.1]; omega), h.1] at ha
          rcases hk : j - s.tracks.length with _ | k
          · rw [hk] at hv ha
            simp at hv ha
            subst hv ha
            exact Follows.fresh hn
          · rw [hk] at hv; simp at hv
    | addData i ts data key =>
      rw [Session.call, Spec.ask]
      cases ht : s.tracks[i]? with
      | none => exact h.modify_none i _ ht
      | some t => exact h.modify i _ t _ ht (fun a ha => ha.addData s.writer ts data key)
    | terminateCurrentChunk i =>
      rw [Session.call]
      show AllFollow as _
      cases ht : s.tracks[i]? with
      | none => exact h
      | some t =>
        have := h.modify i id t t.terminateCurrentChunk ht (fun a ha => by
          unfold Follows Track.terminateCurrentChunk at *
          split <;> exact ha)
        rw [List.modify_id] at this
        exact this
    | setMediaTime i m =>
      rw [Session.call, Spec.ask]
      cases ht : s.tracks[i]? with
      | none => exact h.modify_none i _ ht
      | some t => exact h.modify i _ t _ ht (fun a ha => by
          obtain ⟨h1, h2, h3, h4, h5, h6, h7⟩ := ha
          exact ⟨h1, h2, h3, h4, rfl, h6, h7⟩)

end Mp4
