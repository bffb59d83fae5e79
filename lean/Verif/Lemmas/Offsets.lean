import Verif.Lemmas.Session

/-! # Chunk offsets in any program -/

namespace Mp4

/-- The recorded chunk offsets are in order and at most `N`. -/
def OffsInv (N : Nat) (t : Track) : Prop :=
  (∀ c ∈ t.chunk_infos, c.offset.toNat ≤ N) ∧ (t.chunk_infos.Pairwise fun a b => a.offset.toNat ≤ b.offset.toNat) ∧
  (t.current_chunk_info.initialized = true →
    (∀ c ∈ t.chunk_infos, c.offset.toNat ≤ t.current_chunk_info.offset.toNat) ∧ t.current_chunk_info.offset.toNat ≤ N) ∧
  (t.current_chunk_info.initialized = false → t.current_chunk_info.number_of_samples = 0) ∧
  t.finalized = false

theorem OffsInv.mono {N M : Nat} {t : Track} (h : OffsInv N t) (hle : N ≤ M) : OffsInv M t := by
  obtain ⟨h1, h2, h3, h4, h5⟩ := h
  refine ⟨fun c hc => Nat.le_trans (h1 c hc) hle, h2, fun hi => ?_, h4, h5⟩
  exact ⟨(h3 hi).1, Nat.le_trans (h3 hi).2 hle⟩

theorem OffsInv.init (N : Nat) {p : TrackParameters} {codec : Codec} {t : Track} (h : Track.new p codec = .ok t) : OffsInv N t := by
  obtain ⟨f1, f2, f3, f4, -⟩ := new_fresh h
  refine ⟨by rw [f3]; simp, by rw [f3]; exact List.Pairwise.nil, ?_, ?_, f1⟩ <;> rw [f4] <;> simp

theorem gt_zero_bv (n : BitVec 32) : n > 0 ↔ n ≠ 0 := by
  constructor
  · intro h hn; subst hn; exact absurd h (by decide)
  · intro h
    rw [gt_iff_lt, BitVec.lt_def]
    rcases Nat.eq_zero_or_pos n.toNat with h0 | h0
    · exact absurd (BitVec.eq_of_toNat_eq h0) h
    · exact h0

theorem OffsInv.close {N : Nat} {t : Track} (h : OffsInv N t) (hc : t.current_chunk_info.number_of_samples > 0) :
    (∀ c ∈ t.chunk_infos ++ [t.current_chunk_info], c.offset.toNat ≤ N) ∧
      ((t.chunk_infos ++ [t.current_chunk_info]).Pairwise fun a b => a.offset.toNat ≤ b.offset.toNat) := by
  obtain ⟨h1, h2, h3, h4, h5⟩ := h
  have hi : t.current_chunk_info.initialized = true := by
    cases hb : t.current_chunk_info.initialized with
    | true => rfl
    | false => exact absurd (h4 hb) ((gt_zero_bv _).mp hc)
  obtain ⟨k1, k2⟩ := h3 hi
  refine ⟨?_, ?_⟩
  · intro c hcm
    rcases List.mem_append.mp hcm with hcm | hcm
    · exact h1 c hcm
    · rw [List.mem_singleton] at hcm; subst hcm; exact k2
  · rw [List.pairwise_append]
    refine ⟨h2, List.pairwise_singleton _ _, ?_⟩
    intro a ha b hb
    rw [List.mem_singleton] at hb
    subst hb
    exact k1 a ha

theorem OffsInv.terminate {N : Nat} {t : Track} (h : OffsInv N t) : OffsInv N t.terminateCurrentChunk := by
  unfold Track.terminateCurrentChunk
  split
  · rename_i hc
    obtain ⟨k1, k2⟩ := h.close hc
    refine ⟨k1, k2, ?_, ?_, h.2.2.2.2⟩ <;> simp
  · exact h

theorem OffsInv.finalize {N : Nat} {t : Track} (h : OffsInv N t) :
    (∀ c ∈ t.finalize.chunk_infos, c.offset.toNat ≤ N) ∧
      (t.finalize.chunk_infos.Pairwise fun a b => a.offset.toNat ≤ b.offset.toNat) := by
  unfold Track.finalize
  rw [if_neg (by rw [h.2.2.2.2]; decide)]
  dsimp only
  split
  · rename_i hc
    exact h.close hc
  · exact ⟨h.1, h.2.1⟩

section
variable {σ : Type} [MdatWriter σ]

theorem OffsInv.sample {N : Nat} {t : Track} (h : OffsInv N t) (w : σ) (ts : BitVec 64) (d : List Byte) (key : Bool)
    (hw : (MdatWriter.tellCurrentMdatOffset w).toNat = N) : OffsInv N (t.addMdatData w ts d key).1 := by
  obtain ⟨h1, h2, h3, h4, h5⟩ := h
  unfold Track.addMdatData
  dsimp only
  cases hi : t.current_chunk_info.initialized with
  | true =>
    simp only [if_true]
    refine ⟨h1, h2, fun _ => h3 hi, ?_, h5⟩
    dsimp only
    rw [hi]; simp
  | false =>
    simp only [Bool.false_eq_true, if_false]
    refine ⟨h1, h2, fun _ => ⟨fun c hc => ?_, ?_⟩, by simp, h5⟩
    · dsimp only
      rw [hw]; exact h1 c hc
    · dsimp only
      rw [hw]; exact Nat.le_refl _

/-- The recorded offsets in any program. -/
theorem Reached.offsets (R : σ → σ → Prop) (P : σ → List Byte → Prop) (B : Nat)
    (htell : ∀ w L, P w L → MdatWriter.tellCurrentMdatOffset w = BitVec.ofNat 64 (B + L.length))
    (hadd : ∀ w L d, P w L → P (MdatWriter.addMdatData w d) (L ++ d))
    (hR : ∀ w w' L, P w L → R w w' → P w' L)
    {w0 : σ} {s : Session σ} {es : List Event} (h : Session.Reached R w0 s es) (h0 : P w0 [])
    (hfit : B + (Spec.mdat es).length < 2 ^ 64) :
    ∀ t ∈ s.tracks, OffsInv (B + (Spec.mdat es).length) t := by
  have hset : ∀ {N : Nat} {l : List Track} {i : Nat} {u : Track}, (∀ t ∈ l, OffsInv N t) → OffsInv N u → ∀ t ∈ l.set i u, OffsInv N t := by
    intro N l i u hl hu t ht
    rcases List.mem_or_eq_of_mem_set ht with ht | rfl
    · exact hl t ht
    · exact hu
  induction h with
  | start => intro t ht; simp at ht
  | @create s es p c t hr ht ih =>
    intro u hu
    rcases List.mem_append.mp hu with hu | hu
    · exact ih hfit u hu
    · rw [List.mem_singleton] at hu; subst hu; exact OffsInv.init _ ht
  | silent w hr hw ih => exact ih hfit
  | @sample s es i t x hr ht ih =>
    rw [Spec.mdat_append, List.length_append] at hfit ⊢
    have hP := Reached.writer_inv R P hadd hR hr h0
    rw [List.nil_append] at hP
    have hold := ih (by omega)
    have htl : (MdatWriter.tellCurrentMdatOffset s.writer).toNat = B + (Spec.mdat es).length := by
      rw [htell _ _ hP, BitVec.toNat_ofNat]
      exact Nat.mod_eq_of_lt (by omega)
    refine hset (fun t ht => (hold t ht).mono (by omega)) ?_
    exact ((hold t (List.mem_of_getElem? ht)).sample s.writer _ _ _ htl).mono (by omega)
  | @terminate s es i t hr ht ih =>
    rw [Spec.mdat_append, List.length_append] at hfit ⊢
    have hold := ih (by omega)
    exact hset (fun t ht => (hold t ht).mono (by omega)) ((hold t (List.mem_of_getElem? ht)).terminate.mono (by omega))
  | @configure s es i t c m hr ht hc ih =>
    have hold := ih hfit
    exact hset hold (hold t (List.mem_of_getElem? ht))

end
end Mp4
