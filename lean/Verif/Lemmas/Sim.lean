import Verif.Model.Writer

/-! # Two programs that make the same calls on different writers -/

namespace Mp4

/-- A relation between the writers and the tracks of two programs that is kept by all calls. -/
structure Sim (σ τ : Type) [TrackWriter σ] [TrackWriter τ] where
  /-- the writers -/
  Q : σ → τ → Prop
  /-- a track of each program -/
  T : σ → τ → Track → Track → Prop
  codec : ∀ {x w t t'}, T x w t t' → t'.codec = t.codec
  add : ∀ {x w t t'}, Q x w → T x w t t' → ∀ ts d k,
    Q (t.addMdatData x ts d k).2 (t'.addMdatData w ts d k).2 ∧
    T (t.addMdatData x ts d k).2 (t'.addMdatData w ts d k).2 (t.addMdatData x ts d k).1 (t'.addMdatData w ts d k).1
  other : ∀ {x w t t'}, Q x w → T x w t t' → ∀ d, T (MdatWriter.addMdatData x d) (MdatWriter.addMdatData w d) t t'
  id : ∀ {x w}, Q x w → Q (TrackWriter.getAndUpdateNextTrackID x).2 (TrackWriter.getAndUpdateNextTrackID w).2
  idT : ∀ {x w t t'}, Q x w → T x w t t' → T (TrackWriter.getAndUpdateNextTrackID x).2 (TrackWriter.getAndUpdateNextTrackID w).2 t t'
  new : ∀ {x w p c t}, Q x w → Track.new p c = .ok t → T x w t t
  configure : ∀ {x w t t'}, T x w t t' → ∀ c, T x w { t with codec := c } { t' with codec := c }
  terminate : ∀ {x w t t'}, T x w t t' → T x w t.terminateCurrentChunk t'.terminateCurrentChunk
  mediaTime : ∀ {x w t t'}, T x w t t' → ∀ m, T x w (t.setMediaTime m) (t'.setMediaTime m)

namespace Sim
variable {σ τ : Type} [TrackWriter σ] [TrackWriter τ] (R : Sim σ τ)

/-- The tracks of two programs. -/
def Tracks (x : σ) (w : τ) (l l' : List Track) : Prop :=
  l.length = l'.length ∧ ∀ (i : Nat) t t', l[i]? = some t → l'[i]? = some t' → R.T x w t t'

theorem Tracks.none {x : σ} {w : τ} {l l' : List Track} (h : R.Tracks x w l l') {i : Nat} (hi : l[i]? = none) : l'[i]? = none := by
  rw [List.getElem?_eq_none_iff] at *
  rw [← h.1]; exact hi

theorem Tracks.some {x : σ} {w : τ} {l l' : List Track} (h : R.Tracks x w l l') {i : Nat} {t : Track} (hi : l[i]? = .some t) :
    ∃ t', l'[i]? = .some t' ∧ R.T x w t t' := by
  have hl := (List.getElem?_eq_some_iff.mp hi).1
  refine ⟨l'[i]'(by rw [← h.1]; exact hl), ?_, ?_⟩
  · exact List.getElem?_eq_getElem _
  · exact h.2 i _ _ hi (List.getElem?_eq_getElem _)

theorem Tracks.set {x x' : σ} {w w' : τ} {l l' : List Track} (h : R.Tracks x w l l')
    (ho : ∀ t t', R.T x w t t' → R.T x' w' t t') (i : Nat) {t t' : Track} (ht : R.T x' w' t t') :
    R.Tracks x' w' (l.set i t) (l'.set i t') := by
  refine ⟨by simp [h.1], ?_⟩
  intro j u u' hu hu'
  by_cases hij : i = j
  · subst hij
    have h1 : i < l.length := by have := (List.getElem?_eq_some_iff.mp hu).1; simpa using this
    rw [List.getElem?_set_self h1] at hu
    rw [List.getElem?_set_self (by rw [← h.1]; exact h1)] at hu'
    cases hu; cases hu'
    exact ht
  · rw [List.getElem?_set_ne hij] at hu hu'
    exact ho _ _ (h.2 j u u' hu hu')

theorem addAnnexB (ts : BitVec 64) (data : List Byte) (k : Bool) : ∀ n {t t' : Track} {x : σ} {w : τ} (start : Nat),
    R.Q x w → R.T x w t t' →
    R.Q (t.addAnnexB ts data k n x start).2.2 (t'.addAnnexB ts data k n w start).2.2 ∧
    R.T (t.addAnnexB ts data k n x start).2.2 (t'.addAnnexB ts data k n w start).2.2
      (t.addAnnexB ts data k n x start).2.1 (t'.addAnnexB ts data k n w start).2.1 ∧
    ∀ u u', R.T x w u u' → R.T (t.addAnnexB ts data k n x start).2.2 (t'.addAnnexB ts data k n w start).2.2 u u' := by
  intro n
  induction n with
  | zero => intro t t' x w start hq ht; exact ⟨hq, ht, fun _ _ h => h⟩
  | succ n ih =>
    intro t t' x w start hq ht
    rw [Track.addAnnexB, Track.addAnnexB]
    cases hf : find_next_nal_unit data start with
    | error e => exact ⟨hq, ht, fun _ _ h => h⟩
    | ok nu =>
      dsimp only
      have hm : ∀ f, R.T x w (t.modifyH264 f) (t'.modifyH264 f) := by
        intro f
        unfold Track.modifyH264
        rw [R.codec ht]
        split
        · exact R.configure ht _
        · exact ht
      unfold Track.addNal
      cases nalKind nu.header with
      | vcl =>
        dsimp only
        obtain ⟨a1, a2⟩ := R.add hq ht ts (uint32_to_be (BitVec.ofNat 32 (slice data (nu.start + nu.start_code_size)
          (nu.end_ - nu.start - nu.start_code_size)).length) ++ slice data (nu.start + nu.start_code_size)
          (nu.end_ - nu.start - nu.start_code_size)) k
        split
        · exact ⟨a1, a2, fun _ _ h => R.other hq h _⟩
        · obtain ⟨b1, b2, b3⟩ := ih nu.end_ a1 a2
          exact ⟨b1, b2, fun _ _ h => b3 _ _ (R.other hq h _)⟩
      | sei =>
        dsimp only
        split
        · exact ⟨hq, ht, fun _ _ h => h⟩
        · exact ih nu.end_ hq ht
      | sps =>
        dsimp only
        split
        · exact ⟨hq, hm _, fun _ _ h => h⟩
        · exact ih nu.end_ hq (hm _)
      | pps =>
        dsimp only
        split
        · exact ⟨hq, hm _, fun _ _ h => h⟩
        · exact ih nu.end_ hq (hm _)
      | unsupported => exact ⟨hq, ht, fun _ _ h => h⟩

theorem addData (ts : BitVec 64) (data : List Byte) (k : Bool) {t t' : Track} {x : σ} {w : τ} (hq : R.Q x w) (ht : R.T x w t t') :
    R.Q (t.addData x ts data k).2.2 (t'.addData w ts data k).2.2 ∧
    R.T (t.addData x ts data k).2.2 (t'.addData w ts data k).2.2 (t.addData x ts data k).2.1 (t'.addData w ts data k).2.1 ∧
    ∀ u u', R.T x w u u' → R.T (t.addData x ts data k).2.2 (t'.addData w ts data k).2.2 u u' := by
  unfold Track.addData
  rw [R.codec ht]
  split
  · exact R.addAnnexB ts data k _ _ hq ht
  · obtain ⟨a1, a2⟩ := R.add hq ht ts data k
    exact ⟨a1, a2, fun _ _ h => R.other hq h _⟩

/-- One call. -/
theorem call {s : Session σ} {s' : Session τ} (hq : R.Q s.writer s'.writer) (ht : R.Tracks s.writer s'.writer s.tracks s'.tracks)
    (c : Call) : R.Q (s.call c).writer (s'.call c).writer ∧
      R.Tracks (s.call c).writer (s'.call c).writer (s.call c).tracks (s'.call c).tracks := by
  cases c with
  | getAndUpdateNextTrackID => exact ⟨R.id hq, ht.1, fun i t t' h h' => R.idT hq (ht.2 i t t' h h')⟩
  | newTrack p c =>
    rw [Session.call, Session.call]
    cases hn : Track.new p c with
    | error e => exact ⟨hq, ht⟩
    | ok t =>
      refine ⟨hq, by simp [ht.1], ?_⟩
      intro i u u' hu hu'
      dsimp only at hu hu'
      by_cases hi : i < s.tracks.length
      · rw [List.getElem?_append_left hi] at hu
        rw [List.getElem?_append_left (by rw [← ht.1]; exact hi)] at hu'
        exact ht.2 i u u' hu hu'
      · rw [List.getElem?_append_right (by omega)] at hu
        rw [List.getElem?_append_right (by rw [← ht.1]; omega), ← ht.1] at hu'
        rcases hk : i - s.tracks.length with _ | k
        · rw [hk] at hu hu'
          simp at hu hu'
          subst hu; subst hu'
          exact R.new hq hn
        · rw [hk] at hu; simp at hu
  | addData i ts d k =>
    rw [Session.call, Session.call]
    cases hi : s.tracks[i]? with
    | none => rw [Tracks.none R ht hi]; exact ⟨hq, ht⟩
    | some t =>
      obtain ⟨t', h1, h2⟩ := Tracks.some R ht hi
      rw [h1]
      obtain ⟨a1, a2, a3⟩ := R.addData ts d k hq h2
      exact ⟨a1, Tracks.set R ht a3 i a2⟩
  | terminateCurrentChunk i =>
    rw [Session.call, Session.call]
    cases hi : s.tracks[i]? with
    | none => rw [Tracks.none R ht hi]; exact ⟨hq, ht⟩
    | some t =>
      obtain ⟨t', h1, h2⟩ := Tracks.some R ht hi
      rw [h1]
      exact ⟨hq, Tracks.set R ht (fun _ _ h => h) i (R.terminate h2)⟩
  | setMediaTime i m =>
    rw [Session.call, Session.call]
    cases hi : s.tracks[i]? with
    | none => rw [Tracks.none R ht hi]; exact ⟨hq, ht⟩
    | some t =>
      obtain ⟨t', h1, h2⟩ := Tracks.some R ht hi
      rw [h1]
      exact ⟨hq, Tracks.set R ht (fun _ _ h => h) i (R.mediaTime h2 m)⟩

/-- The same calls on two writers. -/
theorem calls (cs : List Call) : ∀ {s : Session σ} {s' : Session τ}, R.Q s.writer s'.writer →
    R.Tracks s.writer s'.writer s.tracks s'.tracks →
    R.Q (s.calls cs).writer (s'.calls cs).writer ∧
      R.Tracks (s.calls cs).writer (s'.calls cs).writer (s.calls cs).tracks (s'.calls cs).tracks := by
  induction cs with
  | nil => intro s s' hq ht; exact ⟨hq, ht⟩
  | cons c cs ih =>
    intro s s' hq ht
    obtain ⟨a1, a2⟩ := R.call hq ht c
    exact ih a1 a2

end Sim
end Mp4
