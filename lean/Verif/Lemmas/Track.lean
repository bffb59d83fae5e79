import Verif.Model.Track
import Verif.Spec.Track

namespace Mp4

section
variable {σ : Type} [MdatWriter σ]

/-- A history of one track: samples stored (`addMdatData`) and calls of `terminateCurrentChunk`. -/
def Track.run (t : Track) (w : σ) : List TrackCall → Track × σ
  | [] => (t, w)
  | .sample s :: h =>
    Track.run (t.addMdatData w s.timestamp s.data s.key).1 (t.addMdatData w s.timestamp s.data s.key).2 h
  | .terminate :: h => Track.run t.terminateCurrentChunk w h

theorem gt_zero_iff (x : BitVec 32) : x > 0 ↔ x.toNat ≠ 0 := by
  show (0#32 < x) ↔ _
  rw [BitVec.lt_def]
  simp only [BitVec.toNat_ofNat]
  omega

/-- The chunk under construction holds `n` samples. -/
def Track.OpenChunk (t : Track) (n : Nat) : Prop :=
  t.current_chunk_info.number_of_samples.toNat = n ∧ (t.current_chunk_info.initialized = decide (n ≠ 0))

theorem terminate_open (t : Track) (n : Nat) (h : t.OpenChunk n) : t.terminateCurrentChunk.OpenChunk 0 ∧
    t.terminateCurrentChunk.chunk_infos = t.chunk_infos ++ (if n = 0 then [] else [t.current_chunk_info]) := by
  unfold Track.terminateCurrentChunk
  rw [← h.1]
  by_cases h0 : t.current_chunk_info.number_of_samples > 0
  · have h1 := (gt_zero_iff _).mp h0
    rw [if_pos h0, if_neg h1]
    exact ⟨⟨rfl, rfl⟩, rfl⟩
  · have h1 : t.current_chunk_info.number_of_samples.toNat = 0 := by
      by_cases hc : t.current_chunk_info.number_of_samples.toNat = 0
      · exact hc
      · exact absurd ((gt_zero_iff _).mpr hc) h0
    rw [if_neg h0, if_pos h1, List.append_nil]
    refine ⟨?_, rfl⟩
    obtain ⟨h2, h3⟩ := h
    rw [h1] at h2
    subst h2
    exact ⟨h1, h3⟩

theorem add_open (t : Track) (w : σ) (ts : BitVec 64) (d : List Byte) (key : Bool) (n : Nat) (h : t.OpenChunk n)
    (hn : n + 1 < 2 ^ 32) : (t.addMdatData w ts d key).1.OpenChunk (n + 1) := by
  unfold Track.addMdatData Track.OpenChunk
  dsimp only
  constructor
  · split <;> · rw [BitVec.toNat_add]; simp only [h.1]; show (n + 1) % 2 ^ 32 = n + 1; omega
  · split
    · rename_i hi; rw [hi]; simp
    · simp

theorem run_finalize_chunks (h : List TrackCall) : ∀ (t : Track) (w : σ) (cur : List Sample), t.finalized = false →
    t.OpenChunk cur.length → cur.length + (Spec.samples h).length < 2 ^ 32 →
    (t.run w h).1.finalize.chunk_infos.map (·.number_of_samples.toNat) =
      t.chunk_infos.map (·.number_of_samples.toNat) ++ (Spec.chunks cur h).map List.length := by
  induction h with
  | nil =>
    intro t w cur hf ho hn
    rw [Track.run]
    unfold Track.finalize Spec.chunks
    rw [hf]
    simp only [Bool.false_eq_true, if_false]
    by_cases h0 : cur = []
    · rw [if_pos h0, if_neg (by rw [gt_zero_iff, ho.1, h0]; simp)]; simp
    · have hp : cur.length ≠ 0 := by intro hc; exact h0 (List.length_eq_zero_iff.mp hc)
      rw [if_neg h0, if_pos (by rw [gt_zero_iff, ho.1]; exact hp)]
      simp [ho.1]
  | cons c h ih =>
    intro t w cur hf ho hn
    cases c with
    | sample s =>
      rw [Spec.samples, List.length_cons] at hn
      rw [Track.run, Spec.chunks]
      have := add_open t w s.timestamp s.data s.key cur.length ho (by omega)
      rw [ih (t.addMdatData w s.timestamp s.data s.key).1 _ (cur ++ [s]) hf (by rw [List.length_append]; exact this)
        (by simp; omega)]
      rfl
    | terminate =>
      rw [Spec.samples] at hn
      rw [Track.run, Spec.chunks]
      obtain ⟨h1, h2⟩ := terminate_open t _ ho
      have hf' : t.terminateCurrentChunk.finalized = false := by
        unfold Track.terminateCurrentChunk; split <;> exact hf
      rw [ih _ w [] hf' h1 (by simp; omega), h2]
      by_cases h0 : cur = []
      · subst h0; simp
      · have hp : cur.length ≠ 0 := by intro hc; exact h0 (List.length_eq_zero_iff.mp hc)
        rw [if_neg h0, if_neg hp]
        simp [ho.1]

theorem terminate_fields (t : Track) : t.terminateCurrentChunk.mdat_sample_sizes = t.mdat_sample_sizes ∧
    t.terminateCurrentChunk.sample_durations = t.sample_durations ∧
    t.terminateCurrentChunk.key_sample_numbers = t.key_sample_numbers ∧
    t.terminateCurrentChunk.codec = t.codec ∧ t.terminateCurrentChunk.finalized = t.finalized ∧
    t.terminateCurrentChunk.prev_timestamp = t.prev_timestamp ∧
    t.terminateCurrentChunk.durationInTimescale = t.durationInTimescale := by
  unfold Track.terminateCurrentChunk
  split <;> simp

theorem finalize_fields (t : Track) : t.finalize.mdat_sample_sizes = t.mdat_sample_sizes ∧
    t.finalize.key_sample_numbers = t.key_sample_numbers ∧ t.finalize.codec = t.codec := by
  unfold Track.finalize
  split <;> simp

theorem run_sizes (h : List TrackCall) : ∀ (t : Track) (w : σ),
    (t.run w h).1.mdat_sample_sizes = t.mdat_sample_sizes ++ (Spec.samples h).map fun s => BitVec.ofNat 32 s.data.length := by
  induction h with
  | nil => intro t w; simp [Track.run, Spec.samples]
  | cons c h ih =>
    intro t w
    cases c with
    | sample s => rw [Track.run, ih, Spec.samples]; simp [Track.addMdatData]
    | terminate => rw [Track.run, ih, Spec.samples, (terminate_fields t).1]

theorem run_keys (h : List TrackCall) : ∀ (t : Track) (w : σ), t.mdat_sample_sizes.length + (Spec.samples h).length < 2 ^ 32 →
    (t.run w h).1.key_sample_numbers.map (·.toNat) = t.key_sample_numbers.map (·.toNat) ++
      (if t.codec.handler = .vide then Spec.keyNumbers (t.mdat_sample_sizes.length + 1) (Spec.samples h) else []) := by
  induction h with
  | nil => intro t w _; simp [Track.run, Spec.samples, Spec.keyNumbers]
  | cons c h ih =>
    intro t w hn
    cases c with
    | sample s =>
      rw [Spec.samples, List.length_cons] at hn
      rw [Track.run, ih _ _ (by simp [Track.addMdatData]; omega), Spec.samples, Spec.keyNumbers]
      have hc : (t.addMdatData w s.timestamp s.data s.key).1.codec = t.codec := rfl
      have hl : (t.addMdatData w s.timestamp s.data s.key).1.mdat_sample_sizes.length = t.mdat_sample_sizes.length + 1 := by
        simp [Track.addMdatData]
      have hk : (t.addMdatData w s.timestamp s.data s.key).1.key_sample_numbers =
          if t.codec.handler = .vide ∧ s.key = true then
            t.key_sample_numbers ++ [BitVec.ofNat 32 (t.mdat_sample_sizes.length + 1)] else t.key_sample_numbers := by
        simp [Track.addMdatData]
      rw [hc, hl, hk]
      by_cases hv : t.codec.handler = .vide
      · by_cases hs : s.key = true
        · simp only [hv, hs, and_self, if_true, List.map_append, List.map_cons, List.map_nil, BitVec.toNat_ofNat,
            List.append_assoc]
          rw [Nat.mod_eq_of_lt (by omega)]
        · simp [hv, hs]
      · simp [hv]
    | terminate =>
      obtain ⟨h1, -, h2, h3, -⟩ := terminate_fields t
      rw [Spec.samples] at hn
      rw [Track.run, ih _ _ (by rw [h1]; exact hn), Spec.samples, h1, h2, h3]

theorem run_fields (h : List TrackCall) : ∀ (t : Track) (w : σ), (t.run w h).1.finalized = t.finalized ∧
    (t.run w h).1.codec = t.codec ∧ (t.run w h).1.durationInTimescale = t.durationInTimescale := by
  induction h with
  | nil => intro t w; exact ⟨rfl, rfl, rfl⟩
  | cons c h ih =>
    intro t w
    cases c with
    | sample s => exact ih _ _
    | terminate =>
      obtain ⟨-, -, -, h1, h2, -, h3⟩ := terminate_fields t
      rw [Track.run]
      obtain ⟨i1, i2, i3⟩ := ih t.terminateCurrentChunk w
      exact ⟨i1.trans h2, i2.trans h1, i3.trans h3⟩

/-- Durations, once at least one sample has been stored. -/
theorem run_durations_go (h : List TrackCall) : ∀ (t : Track) (w : σ), t.finalized = false → t.mdat_sample_sizes ≠ [] →
    (t.run w h).1.finalize.sample_durations = t.sample_durations ++
      Spec.durations t.durationInTimescale (t.prev_timestamp :: (Spec.samples h).map (·.timestamp)) := by
  induction h with
  | nil =>
    intro t w hf hs
    rw [Track.run]
    unfold Track.finalize
    rw [hf]
    simp [Spec.samples, hs, Spec.durations]
  | cons c h ih =>
    intro t w hf hs
    cases c with
    | sample s =>
      rw [Track.run, ih _ _ (by exact hf) (by simp [Track.addMdatData]), Spec.samples, List.map_cons, Spec.durations]
      simp [Track.addMdatData, hs]
    | terminate =>
      obtain ⟨h1, h2, -, -, h3, h4, h5⟩ := terminate_fields t
      rw [Track.run, ih _ _ (by rw [h3]; exact hf) (by rw [h1]; exact hs), h2, h4, h5]
      rfl

theorem run_durations (h : List TrackCall) : ∀ (t : Track) (w : σ), t.finalized = false → t.mdat_sample_sizes = [] →
    (t.run w h).1.finalize.sample_durations = t.sample_durations ++
      Spec.durations t.durationInTimescale ((Spec.samples h).map (·.timestamp)) := by
  induction h with
  | nil =>
    intro t w hf hs
    rw [Track.run]
    unfold Track.finalize
    rw [hf]
    simp [Spec.samples, hs, Spec.durations]
  | cons c h ih =>
    intro t w hf hs
    cases c with
    | sample s =>
      rw [Track.run, run_durations_go _ _ _ (by exact hf) (by simp [Track.addMdatData]), Spec.samples, List.map_cons]
      simp [Track.addMdatData, hs]
    | terminate =>
      obtain ⟨h1, h2, -, -, h3, h4, h5⟩ := terminate_fields t
      rw [Track.run, ih _ _ (by rw [h3]; exact hf) (by rw [h1]; exact hs), h2, h5]
      rfl

end

/-! ### Tables -/

theorem sttsGo_expand (ds : List (BitVec 32)) : ∀ (d count : BitVec 32), 0 < count.toNat →
    count.toNat + ds.length < 2 ^ 32 →
    Spec.sttsDurations (sttsGo d count ds) = List.replicate count.toNat d ++ ds := by
  induction ds with
  | nil =>
    intro d count h0 _
    rw [sttsGo, if_pos ((gt_zero_iff _).mpr (by omega))]
    simp [Spec.sttsDurations]
  | cons e ds ih =>
    intro d count h0 hn
    rw [List.length_cons] at hn
    have h1 : (count + 1).toNat = count.toNat + 1 := by rw [BitVec.toNat_add]; simp; omega
    rw [sttsGo]
    split
    · rename_i he
      rw [ih d (count + 1) (by omega) (by omega), h1, ← he, List.replicate_succ']
      simp
    · have := ih e 1 (by simp) (by simp; omega)
      unfold Spec.sttsDurations at this ⊢
      rw [List.flatMap_cons, this]
      simp

theorem sttsGo_head (ds : List (BitVec 32)) : ∀ (d count : BitVec 32), 0 < count.toNat → count.toNat + ds.length < 2 ^ 32 →
    ∃ e es, sttsGo d count ds = e :: es ∧ e.sample_duration = d := by
  induction ds with
  | nil =>
    intro d count h0 _
    rw [sttsGo, if_pos ((gt_zero_iff _).mpr (by omega))]
    exact ⟨_, _, rfl, rfl⟩
  | cons e ds ih =>
    intro d count h0 hn
    rw [List.length_cons] at hn
    have h1 : (count + 1).toNat = count.toNat + 1 := by rw [BitVec.toNat_add]; simp; omega
    rw [sttsGo]
    split
    · exact ih d (count + 1) (by omega) (by omega)
    · exact ⟨_, _, rfl, rfl⟩

theorem sttsGo_minimal (ds : List (BitVec 32)) : ∀ (d count : BitVec 32), 0 < count.toNat →
    count.toNat + ds.length < 2 ^ 32 →
    (∀ e ∈ sttsGo d count ds, 0 < e.sample_count.toNat) ∧
    Spec.Adjacent (fun a b => a.sample_duration ≠ b.sample_duration) (sttsGo d count ds) := by
  induction ds with
  | nil =>
    intro d count h0 _
    rw [sttsGo, if_pos ((gt_zero_iff _).mpr (by omega))]
    simpa [Spec.Adjacent] using h0
  | cons e ds ih =>
    intro d count h0 hn
    rw [List.length_cons] at hn
    have h1 : (count + 1).toNat = count.toNat + 1 := by rw [BitVec.toNat_add]; simp; omega
    rw [sttsGo]
    split
    · exact ih d (count + 1) (by omega) (by omega)
    · rename_i he
      obtain ⟨i1, i2⟩ := ih e 1 (by simp) (by simp; omega)
      obtain ⟨x, xs, hx, hd⟩ := sttsGo_head ds e 1 (by simp) (by simp; omega)
      rw [hx] at i1 i2 ⊢
      refine ⟨?_, ?_⟩
      · intro y hy
        rcases List.mem_cons.mp hy with rfl | hy
        · exact h0
        · exact i1 y hy
      · rw [Spec.Adjacent]
        exact ⟨by rw [hd]; exact he, i2⟩

theorem stscGo_props (cs : List ChunkInfo) : ∀ (spc : Int) (k : BitVec 32), k.toNat + cs.length < 2 ^ 32 →
    (∀ e ∈ stscGo spc k cs, k.toNat ≤ e.first_chunk.toNat ∧ e.sample_description_index = 1) ∧
    (stscGo spc k cs).Pairwise (fun a b => a.first_chunk.toNat < b.first_chunk.toNat) := by
  induction cs with
  | nil => intro spc k _; simp [stscGo]
  | cons c cs ih =>
    intro spc k hn
    rw [List.length_cons] at hn
    have h1 : (k + 1).toNat = k.toNat + 1 := by rw [BitVec.toNat_add]; simp; omega
    rw [stscGo]
    split
    · obtain ⟨i1, i2⟩ := ih c.number_of_samples.toNat (k + 1) (by omega)
      refine ⟨?_, ?_⟩
      · intro e he
        rcases List.mem_cons.mp he with rfl | he
        · exact ⟨Nat.le_refl _, rfl⟩
        · have := i1 e he; exact ⟨by omega, this.2⟩
      · rw [List.pairwise_cons]
        refine ⟨fun e he => ?_, i2⟩
        have := (i1 e he).1
        dsimp only; omega
    · obtain ⟨i1, i2⟩ := ih spc (k + 1) (by omega)
      exact ⟨fun e he => by have := i1 e he; exact ⟨by omega, this.2⟩, i2⟩

/-- What an entry list says for a chunk when nothing before it applies. -/
def spcOr (d : Nat) (entries : List StscEntry) (chunk : Nat) : Nat :=
  match (entries.filter fun e => e.first_chunk.toNat ≤ chunk).getLast? with
  | some e => e.samples_per_chunk.toNat
  | none => d

theorem spcOr_cons (d : Nat) (e : StscEntry) (es : List StscEntry) (k : Nat) (h : e.first_chunk.toNat ≤ k) :
    spcOr d (e :: es) k = spcOr e.samples_per_chunk.toNat es k := by
  unfold spcOr
  rw [List.filter_cons_of_pos (by simpa using h), List.getLast?_cons]
  cases (es.filter fun e => decide (e.first_chunk.toNat ≤ k)).getLast? <;> rfl

theorem stscGo_lookup (cs : List ChunkInfo) : ∀ (spc : Int) (k : BitVec 32) (d : Nat), k.toNat + cs.length < 2 ^ 32 →
    (spc = d ∨ spc = -1) →
    ∀ (j : Nat) (c : ChunkInfo), cs[j]? = some c → spcOr d (stscGo spc k cs) (k.toNat + j) = c.number_of_samples.toNat := by
  induction cs with
  | nil => intro _ _ _ _ _ j c hj; simp at hj
  | cons x cs ih =>
    intro spc k d hn hd j c hj
    rw [List.length_cons] at hn
    have h1 : (k + 1).toNat = k.toNat + 1 := by rw [BitVec.toNat_add]; simp; omega
    rw [stscGo]
    split
    · rename_i hx
      rw [spcOr_cons _ _ _ _ (by dsimp only; omega)]
      dsimp only
      cases j with
      | zero =>
        simp only [List.getElem?_cons_zero, Option.some.injEq] at hj
        subst hj
        obtain ⟨i1, -⟩ := stscGo_props cs x.number_of_samples.toNat (k + 1) (by omega)
        unfold spcOr
        have : (stscGo (↑x.number_of_samples.toNat) (k + 1) cs).filter (fun e => decide (e.first_chunk.toNat ≤ k.toNat + 0)) = [] := by
          rw [List.filter_eq_nil_iff]
          intro e he
          have := (i1 e he).1
          simp; omega
        rw [this]; rfl
      | succ j =>
        have := ih x.number_of_samples.toNat (k + 1) x.number_of_samples.toNat (by omega) (Or.inl rfl) j c (by simpa using hj)
        rw [h1] at this
        rw [show k.toNat + (j + 1) = k.toNat + 1 + j by omega]
        exact this
    · rename_i hx
      have hx : spc = (x.number_of_samples.toNat : Int) := by
        by_cases hc : spc = (x.number_of_samples.toNat : Int)
        · exact hc
        · exact absurd hc hx
      have hd' : d = x.number_of_samples.toNat := by omega
      cases j with
      | zero =>
        simp only [List.getElem?_cons_zero, Option.some.injEq] at hj
        subst hj
        obtain ⟨i1, -⟩ := stscGo_props cs spc (k + 1) (by omega)
        unfold spcOr
        have : (stscGo spc (k + 1) cs).filter (fun e => decide (e.first_chunk.toNat ≤ k.toNat + 0)) = [] := by
          rw [List.filter_eq_nil_iff]
          intro e he
          have := (i1 e he).1
          simp; omega
        rw [this]; exact hd'
      | succ j =>
        have := ih spc (k + 1) d (by omega) hd j c (by simpa using hj)
        rw [h1] at this
        rw [show k.toNat + (j + 1) = k.toNat + 1 + j by omega]
        exact this

theorem stscGo_head (cs : List ChunkInfo) (k : BitVec 32) : ∀ c cs', cs = c :: cs' →
    ∃ es, stscGo (-1) k cs = ⟨k, c.number_of_samples, 1⟩ :: es := by
  rintro c cs' rfl
  rw [stscGo, if_pos (by omega)]
  exact ⟨_, rfl⟩

/-- No redundant entries: each entry's `samples_per_chunk` differs from that of the entry before. -/
theorem stscGo_chain (cs : List ChunkInfo) : ∀ (spc : Int) (k : BitVec 32),
    Spec.Adjacent (fun a b => a.samples_per_chunk ≠ b.samples_per_chunk) (stscGo spc k cs) ∧
    ∀ e es, stscGo spc k cs = e :: es → spc ≠ e.samples_per_chunk.toNat := by
  induction cs with
  | nil => intro spc k; simp [stscGo, Spec.Adjacent]
  | cons c cs ih =>
    intro spc k
    rw [stscGo]
    split
    · rename_i hx
      obtain ⟨i1, i2⟩ := ih c.number_of_samples.toNat (k + 1)
      refine ⟨?_, ?_⟩
      · cases hh : stscGo (↑c.number_of_samples.toNat) (k + 1) cs with
        | nil => simp [Spec.Adjacent]
        | cons e es =>
          rw [hh] at i1
          rw [Spec.Adjacent]
          refine ⟨?_, i1⟩
          have := i2 e es hh
          dsimp only
          intro hc
          apply this
          rw [hc]
      · rintro e es he
        cases he
        exact hx
    · exact ih spc (k + 1)

end Mp4
