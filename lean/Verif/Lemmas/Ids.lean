import Verif.Lemmas.Program

/-! # Track ids: lemmas -/

namespace Mp4

section
variable {σ : Type} [TrackWriter σ]

theorem addSamples_keeps {α : Type} (next : σ → α) (hadd : ∀ w d, next (MdatWriter.addMdatData w d) = next w)
    (ts : BitVec 64) (key : Bool) (ss : List (List Byte)) : ∀ (t : Track) (w : σ), next (t.addSamples w ts key ss).2 = next w := by
  induction ss with
  | nil => intro t w; rfl
  | cons s ss ih => intro t w; rw [Track.addSamples, ih]; exact hadd w s

theorem addData_keeps {α : Type} (next : σ → α) (hadd : ∀ w d, next (MdatWriter.addMdatData w d) = next w)
    (t : Track) (w : σ) (ts : BitVec 64) (data : List Byte) (key : Bool) : next (t.addData w ts data key).2.2 = next w := by
  obtain ⟨ss, c, -, -, h⟩ := addData_shape t w ts data key
  rw [h]
  exact addSamples_keeps next hadd ts key ss t w

/-- Only asking for an id changes the next id. -/
theorem call_keeps {α : Type} (next : σ → α) (hadd : ∀ w d, next (MdatWriter.addMdatData w d) = next w) (s : Session σ) (c : Call)
    (hc : c ≠ .getAndUpdateNextTrackID) : next (s.call c).writer = next s.writer := by
  cases c with
  | getAndUpdateNextTrackID => exact absurd rfl hc
  | newTrack p c => rw [Session.call]; split <;> rfl
  | addData i ts data key =>
    rw [Session.call]; split
    · rfl
    · exact addData_keeps next hadd _ _ _ _ _
  | terminateCurrentChunk i => rw [Session.call]; split <;> rfl
  | setMediaTime i m => rw [Session.call]; split <;> rfl

/-- The number of calls of `getAndUpdateNextTrackID`. -/
def idCalls : List Call → Nat
  | [] => 0
  | .getAndUpdateNextTrackID :: cs => idCalls cs + 1
  | _ :: cs => idCalls cs

theorem ids_eq (next : σ → BitVec 32) (hadd : ∀ w d, next (MdatWriter.addMdatData w d) = next w)
    (hid : ∀ w, (TrackWriter.getAndUpdateNextTrackID w).1 = next w ∧ next (TrackWriter.getAndUpdateNextTrackID w).2 = next w + 1)
    (calls : List Call) : ∀ (s : Session σ) (k : Nat), next s.writer = BitVec.ofNat 32 (k + 1) →
    s.ids calls = (List.range (idCalls calls)).map (fun j => BitVec.ofNat 32 (k + j + 1)) ∧
    next (s.calls calls).writer = BitVec.ofNat 32 (k + idCalls calls + 1) := by
  induction calls with
  | nil => intro s k h; exact ⟨rfl, h⟩
  | cons c calls ih =>
    intro s k h
    by_cases hc : c = .getAndUpdateNextTrackID
    · subst hc
      have hn : next (s.call .getAndUpdateNextTrackID).writer = BitVec.ofNat 32 (k + 1 + 1) := by
        rw [Session.call, (hid s.writer).2, h, BitVec.ofNat_add (k + 1) 1]; rfl
      obtain ⟨h1, h2⟩ := ih _ (k + 1) hn
      constructor
      · rw [Session.ids, h1, (hid s.writer).1, h, idCalls, List.range_succ_eq_map, List.map_cons, List.map_map]
        congr 1
        apply List.map_congr_left
        intro j _
        simp only [Function.comp_apply]
        congr 1; omega
      · rw [Session.calls, h2, idCalls]
        congr 1; omega
    · have hn := call_keeps next hadd s c hc
      obtain ⟨h1, h2⟩ := ih (s.call c) k (hn.trans h)
      have e1 : s.ids (c :: calls) = (s.call c).ids calls := by
        cases c <;> first | exact absurd rfl hc | rfl
      have e2 : idCalls (c :: calls) = idCalls calls := by
        cases c <;> first | exact absurd rfl hc | rfl
      exact ⟨by rw [e1, e2]; exact h1, by rw [e2]; exact h2⟩

theorem ids_length (calls : List Call) : ∀ (s : Session σ), (s.ids calls).length = idCalls calls := by
  induction calls with
  | nil => intro s; rfl
  | cons c calls ih => intro s; cases c <;> simp only [Session.ids, idCalls, List.length_cons, ih]

end
end Mp4
