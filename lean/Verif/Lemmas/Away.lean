import Verif.Lemmas.Faststart
import Verif.Lemmas.Session

/-! # The same calls with two writers whose positions differ by a constant -/

namespace Mp4

/-- A chunk `D` bytes further on. -/
def ChunkInfo.away (D : Nat) (c : ChunkInfo) : ChunkInfo :=
  if c.initialized = true ∨ c.number_of_samples > 0 then { c with offset := c.offset + BitVec.ofNat 64 D } else c

/-- A track whose sample data is `D` bytes further on. -/
def Track.away (D : Nat) (t : Track) : Track :=
  { t with chunk_infos := t.chunk_infos.map (fun c => { c with offset := c.offset + BitVec.ofNat 64 D }),
           current_chunk_info := t.current_chunk_info.away D }

namespace Track

theorem away_number (D : Nat) (c : ChunkInfo) : (c.away D).number_of_samples = c.number_of_samples := by
  unfold ChunkInfo.away; split <;> rfl

theorem away_init (D : Nat) (c : ChunkInfo) : (c.away D).initialized = c.initialized := by
  unfold ChunkInfo.away; split <;> rfl

theorem away_terminate (D : Nat) (t : Track) : (t.away D).terminateCurrentChunk = t.terminateCurrentChunk.away D := by
  unfold Track.terminateCurrentChunk
  have h : (t.away D).current_chunk_info.number_of_samples = t.current_chunk_info.number_of_samples := away_number D _
  rw [h]
  split
  · rename_i hc
    have hc' : (t.away D).current_chunk_info = { t.current_chunk_info with offset := t.current_chunk_info.offset + BitVec.ofNat 64 D } := by
      show t.current_chunk_info.away D = _
      unfold ChunkInfo.away; rw [if_pos (.inr hc)]
    rw [hc']
    simp [Track.away, ChunkInfo.away]
  · rfl

theorem away_finalize (D : Nat) (t : Track) : ∃ c, (t.away D).finalize = { t.finalize.shift D with current_chunk_info := c } := by
  unfold Track.finalize
  have h : (t.away D).current_chunk_info.number_of_samples = t.current_chunk_info.number_of_samples := away_number D _
  rw [h]
  refine ⟨t.current_chunk_info.away D, ?_⟩
  by_cases hf : t.finalized = true
  · rw [if_pos (show (t.away D).finalized = true from hf), if_pos hf]
    rfl
  · rw [if_neg (show ¬ (t.away D).finalized = true from hf), if_neg hf]
    by_cases hc : t.current_chunk_info.number_of_samples > 0
    · have hc' : (t.away D).current_chunk_info = { t.current_chunk_info with offset := t.current_chunk_info.offset + BitVec.ofNat 64 D } := by
        show t.current_chunk_info.away D = _
        unfold ChunkInfo.away; rw [if_pos (.inr hc)]
      rw [if_pos hc, if_pos hc, hc']
      simp only [Track.shift, Track.away, List.map_append, List.map_cons, List.map_nil]
      unfold ChunkInfo.away
      rw [if_pos (.inr hc)]
      rfl
    · rw [if_neg hc, if_neg hc]
      rfl

theorem away_media (D : Nat) (t : Track) (m : BitVec 64) : (t.away D).setMediaTime m = (t.setMediaTime m).away D := rfl

theorem away_modify (D : Nat) (t : Track) (f : H264Config → H264Config) : (t.away D).modifyH264 f = (t.modifyH264 f).away D := by
  unfold Track.modifyH264
  have h : (t.away D).codec = t.codec := rfl
  rw [h]
  split <;> rfl

end Track

section
variable {σ τ : Type} [TrackWriter σ] [TrackWriter τ]

/-- The position of the second writer stays `D` bytes ahead of that of the first, and the ids they give out are the same. -/
structure Ahead (D : Nat) (W : σ → τ → Prop) : Prop where
  tell : ∀ a b, W a b → MdatWriter.tellCurrentMdatOffset b = MdatWriter.tellCurrentMdatOffset a + BitVec.ofNat 64 D
  add : ∀ a b d, W a b → W (MdatWriter.addMdatData a d) (MdatWriter.addMdatData b d)
  id : ∀ a b, W a b → (TrackWriter.getAndUpdateNextTrackID a).1 = (TrackWriter.getAndUpdateNextTrackID b).1 ∧
    W (TrackWriter.getAndUpdateNextTrackID a).2 (TrackWriter.getAndUpdateNextTrackID b).2

variable {D : Nat} {W : σ → τ → Prop} (hW : Ahead D W)
include hW

theorem Track.away_addMdatData (t : Track) (a : σ) (b : τ) (hab : W a b) (ts : BitVec 64) (d : List Byte) (k : Bool) :
    ((t.away D).addMdatData b ts d k).1 = (t.addMdatData a ts d k).1.away D ∧
    W (t.addMdatData a ts d k).2 ((t.away D).addMdatData b ts d k).2 := by
  refine ⟨?_, hW.add a b d hab⟩
  have ht := hW.tell a b hab
  cases hi : t.current_chunk_info.initialized with
  | true =>
    have h1 : (t.away D).current_chunk_info = { t.current_chunk_info with offset := t.current_chunk_info.offset + BitVec.ofNat 64 D } := by
      show t.current_chunk_info.away D = _
      unfold ChunkInfo.away; rw [if_pos (.inl hi)]
    unfold Track.addMdatData
    dsimp only
    rw [h1]
    dsimp only
    rw [hi]
    simp [Track.away, ChunkInfo.away, hi]
  | false =>
    have h1 : (t.away D).current_chunk_info.initialized = false := by
      show (t.current_chunk_info.away D).initialized = _
      rw [away_init, hi]
    have h2 : (t.away D).current_chunk_info.number_of_samples = t.current_chunk_info.number_of_samples := away_number D _
    unfold Track.addMdatData
    dsimp only
    rw [h1, hi]
    simp only [Bool.false_eq_true, if_false, ht, h2]
    simp [Track.away, ChunkInfo.away]

/-- Two calls that both throw the same, or return tracks and writers that are related. -/
def PairRel (D : Nat) (W : σ → τ → Prop) : Except Err (Track × σ) → Except Err (Track × τ) → Prop
  | .error e, .error e' => e = e'
  | .ok (t, a), .ok (t', b) => t' = t.away D ∧ W a b
  | _, _ => False

theorem Track.away_addNal (t : Track) (a : σ) (b : τ) (hab : W a b) (ts : BitVec 64) (h : Byte) (d : List Byte) (k : Bool) :
    PairRel D W (t.addNal a ts h d k) ((t.away D).addNal b ts h d k) := by
  unfold Track.addNal
  cases nalKind h with
  | vcl => exact Track.away_addMdatData hW t a b hab ts _ k
  | sei => exact ⟨rfl, hab⟩
  | sps => exact ⟨away_modify D t _, hab⟩
  | pps => exact ⟨away_modify D t _, hab⟩
  | unsupported => rfl

theorem Track.away_addAnnexB (ts : BitVec 64) (data : List Byte) (k : Bool) (n : Nat) : ∀ (t : Track) (a : σ) (b : τ) (start : Nat), W a b →
    (Track.addAnnexB ts data k n (t.away D) b start).1 = (Track.addAnnexB ts data k n t a start).1 ∧
    (Track.addAnnexB ts data k n (t.away D) b start).2.1 = (Track.addAnnexB ts data k n t a start).2.1.away D ∧
    W (Track.addAnnexB ts data k n t a start).2.2 (Track.addAnnexB ts data k n (t.away D) b start).2.2 := by
  induction n with
  | zero => intro t a b start hab; exact ⟨rfl, rfl, hab⟩
  | succ n ih =>
    intro t a b start hab
    unfold Track.addAnnexB
    cases hn : find_next_nal_unit data start with
    | error e => exact ⟨rfl, rfl, hab⟩
    | ok nu =>
      dsimp only
      have hr := Track.away_addNal hW t a b hab ts nu.header
        (slice data (nu.start + nu.start_code_size) (nu.end_ - nu.start - nu.start_code_size)) k
      cases h1 : t.addNal a ts nu.header (slice data (nu.start + nu.start_code_size) (nu.end_ - nu.start - nu.start_code_size)) k with
      | error e =>
        rw [h1] at hr
        cases h2 : (t.away D).addNal b ts nu.header
          (slice data (nu.start + nu.start_code_size) (nu.end_ - nu.start - nu.start_code_size)) k with
        | error e' => rw [h2] at hr; have he : e = e' := hr; subst he; exact ⟨rfl, rfl, hab⟩
        | ok p => rw [h2] at hr; exact absurd hr (by simp [PairRel])
      | ok p =>
        obtain ⟨t1, a1⟩ := p
        rw [h1] at hr
        cases h2 : (t.away D).addNal b ts nu.header
          (slice data (nu.start + nu.start_code_size) (nu.end_ - nu.start - nu.start_code_size)) k with
        | error e' => rw [h2] at hr; exact absurd hr (by simp [PairRel])
        | ok q =>
          obtain ⟨t2, b1⟩ := q
          rw [h2] at hr
          obtain ⟨he, hab1⟩ : t2 = t1.away D ∧ W a1 b1 := hr
          subst he
          dsimp only
          split
          · exact ⟨rfl, rfl, hab1⟩
          · exact ih t1 a1 b1 _ hab1

theorem Track.away_addData (t : Track) (a : σ) (b : τ) (hab : W a b) (ts : BitVec 64) (d : List Byte) (k : Bool) :
    ((t.away D).addData b ts d k).1 = (t.addData a ts d k).1 ∧
    ((t.away D).addData b ts d k).2.1 = (t.addData a ts d k).2.1.away D ∧
    W (t.addData a ts d k).2.2 ((t.away D).addData b ts d k).2.2 := by
  have hm := Track.away_addMdatData hW t a b hab ts d k
  have ha := Track.away_addAnnexB hW ts d k (d.length + 1) t a b 0 hab
  unfold Track.addData
  rw [show (t.away D).codec = t.codec from rfl]
  cases t.codec with
  | h264 w h c => exact ha
  | _ => exact ⟨rfl, hm.1, hm.2⟩

/-- The same calls on both sides. -/
theorem Session.away_call (s : Session σ) (s' : Session τ) (ht : s'.tracks = s.tracks.map (·.away D)) (hw : W s.writer s'.writer)
    (c : Call) : (s'.call c).tracks = (s.call c).tracks.map (·.away D) ∧ W (s.call c).writer (s'.call c).writer := by
  cases c with
  | getAndUpdateNextTrackID => exact ⟨ht, (hW.id _ _ hw).2⟩
  | newTrack p codec =>
    unfold Session.call
    dsimp only
    cases hn : Track.new p codec with
    | error e => exact ⟨ht, hw⟩
    | ok t =>
      refine ⟨?_, hw⟩
      have : t.away D = t := by
        obtain ⟨-, -, h3, h4, -⟩ := new_fresh hn
        unfold Track.away
        rw [h3, h4, show ({} : ChunkInfo).away D = {} by simp [ChunkInfo.away]]
        rw [List.map_nil, ← h3, ← h4]
      simp [ht, this]
  | addData i ts d k =>
    unfold Session.call
    dsimp only
    rw [ht, List.getElem?_map]
    cases hi : s.tracks[i]? with
    | none => exact ⟨ht, hw⟩
    | some t =>
      obtain ⟨-, h2, h3⟩ := Track.away_addData hW t s.writer s'.writer hw ts d k
      refine ⟨?_, h3⟩
      dsimp only [Option.map_some]
      rw [h2, List.map_set]
  | terminateCurrentChunk i =>
    unfold Session.call
    dsimp only
    rw [ht, List.getElem?_map]
    cases hi : s.tracks[i]? with
    | none => exact ⟨ht, hw⟩
    | some t =>
      refine ⟨?_, hw⟩
      dsimp only [Option.map_some]
      rw [Track.away_terminate, List.map_set]
  | setMediaTime i m =>
    unfold Session.call
    dsimp only
    rw [ht, List.getElem?_map]
    cases hi : s.tracks[i]? with
    | none => exact ⟨ht, hw⟩
    | some t =>
      refine ⟨?_, hw⟩
      dsimp only [Option.map_some]
      rw [Track.away_media, List.map_set]

theorem Session.away_calls (cs : List Call) : ∀ (s : Session σ) (s' : Session τ), s'.tracks = s.tracks.map (·.away D) →
    W s.writer s'.writer → (s'.calls cs).tracks = (s.calls cs).tracks.map (·.away D) ∧ W (s.calls cs).writer (s'.calls cs).writer := by
  induction cs with
  | nil => intro s s' ht hw; exact ⟨ht, hw⟩
  | cons c cs ih =>
    intro s s' ht hw
    obtain ⟨h1, h2⟩ := Session.away_call hW s s' ht hw c
    exact ih _ _ h1 h2

end

/-! ### `FaststartWriter` and `SimpleWriter` -/

/-- The intermediate file holds what the other writer has behind the first `D` bytes. -/
def FaststartSimple (o : OStream) (a : FaststartWriter) (b : SimpleWriter) : Prop :=
  a.mdat.pos = a.mdat.content.length ∧ b.os = o.write a.mdat.content ∧ a.next_track_id = b.next_track_id

theorem faststartSimple_ahead (o : OStream) : Ahead o.pos (FaststartSimple o) where
  tell := by
    intro a b ⟨h1, h2, h3⟩
    show BitVec.ofNat 64 b.os.pos = BitVec.ofNat 64 a.mdat.pos + BitVec.ofNat 64 o.pos
    rw [h2, OStream.write_pos, h1, Nat.add_comm, BitVec.ofNat_add]
  add := by
    intro a b d ⟨h1, h2, h3⟩
    have hw := OStream.write_end a.mdat.content d
    refine ⟨?_, ?_, h3⟩
    · show ((OStream.mk a.mdat.content a.mdat.pos).write d).pos = ((OStream.mk a.mdat.content a.mdat.pos).write d).data.length
      rw [h1, hw]
    · show b.os.write d = o.write ((OStream.mk a.mdat.content a.mdat.pos).write d).data
      rw [h1, hw, OStream.write_append, h2]
  id := by
    intro a b ⟨h1, h2, h3⟩
    refine ⟨h3, h1, h2, ?_⟩
    show a.next_track_id + 1 = b.next_track_id + 1
    rw [h3]

/-- What is written at one position of a stream is known from the result. -/
theorem OStream.write_cancel (o : OStream) (p q : List Byte) (h : o.write p = o.write q) : p = q := by
  have hp := congrArg OStream.pos h
  rw [OStream.write_pos, OStream.write_pos] at hp
  have hl : p.length = q.length := by omega
  by_cases h0 : p = []
  · subst h0; exact (List.length_eq_zero_iff.mp hl.symm).symm
  · have h1 : q ≠ [] := by intro hq; subst hq; exact h0 (List.length_eq_zero_iff.mp hl)
    have hd := congrArg OStream.data h
    unfold OStream.write at hd
    rw [if_neg h0, if_neg h1] at hd
    dsimp only at hd
    rw [hl, List.append_cancel_right_eq, List.append_cancel_left_eq] at hd
    exact hd

end Mp4
