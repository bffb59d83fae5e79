import Verif.Spec.Writer

/-! # Specification: which bytes of the file belong to which sample -/

namespace Mp4.Spec

/-! ### What the program stored -/

/-- Offset and size of the samples of track `i`, when all sample data is stored from `o` on in the order it is added. -/
def places (i : Nat) : Nat → List Event → List (Nat × Nat)
  | _, [] => []
  | o, .sample j s :: es => if j = i then (o, s.data.length) :: places i (o + s.data.length) es else places i (o + s.data.length) es
  | o, .terminate _ :: es => places i o es

/-! ### What the tables say -/

/-- Consecutive samples of the given sizes from offset `o` on. -/
def runRanges (o : Nat) : List Nat → List (Nat × Nat)
  | [] => []
  | n :: ns => (o, n) :: runRanges (o + n) ns

/-- Offset and size of the samples of the chunks at the given offsets, the first of them being chunk number `k`; `sizes` are the sizes of
their samples. -/
def chunkRanges (stsc : List StscEntry) (k : Nat) : List Nat → List Nat → List (Nat × Nat)
  | [], _ => []
  | o :: os, sizes =>
    runRanges o (sizes.take (samplesPerChunk stsc k)) ++ chunkRanges stsc (k + 1) os (sizes.drop (samplesPerChunk stsc k))

/-- Offset and size of the samples of a `trak` box, found through `stsc`, `stsz` and `stco`/`co64`. -/
def trakRanges (trak : Tree) : Option (List (Nat × Nat)) :=
  (stbl trak).bind fun s => (stscEntries s).bind fun stsc => (stszSizes s).bind fun sizes => (stblOffsets s).bind fun offsets =>
    some (chunkRanges stsc 1 offsets sizes)

/-- The byte at position `p` belongs to sample `k` of track `i`, when these are the ranges of the samples of all tracks. -/
def Belongs (tracks : List (List (Nat × Nat))) (p i k : Nat) : Prop :=
  ∃ ranges range, tracks[i]? = some ranges ∧ ranges[k]? = some range ∧ range.1 ≤ p ∧ p < range.1 + range.2

/-- Every byte of the `n` bytes at `o` belongs to exactly one sample, and no sample has bytes elsewhere. -/
def Partition (tracks : List (List (Nat × Nat))) (o n : Nat) : Prop :=
  (∀ p, o ≤ p → p < o + n → ∃ i k, Belongs tracks p i k ∧ ∀ i' k', Belongs tracks p i' k' → i' = i ∧ k' = k) ∧
  ∀ p i k, Belongs tracks p i k → o ≤ p ∧ p < o + n

/-! ### Facts -/

theorem places_append (i : Nat) (a b : List Event) (o : Nat) : places i o (a ++ b) = places i o a ++ places i (o + (mdat a).length) b := by
  induction a generalizing o with
  | nil => rfl
  | cons e a ih =>
    cases e with
    | sample j s =>
      simp only [List.cons_append, places, mdat, List.length_append]
      split
      · rw [ih, List.cons_append, Nat.add_assoc]
      · rw [ih, Nat.add_assoc]
    | terminate j => simp only [List.cons_append, places, mdat]; exact ih o

theorem places_shift (i : Nat) (es : List Event) (o c : Nat) : places i (c + o) es = (places i o es).map fun r => (c + r.1, r.2) := by
  induction es generalizing o with
  | nil => rfl
  | cons e es ih =>
    cases e with
    | sample j s =>
      simp only [places]
      split
      · rw [List.map_cons, ← ih, Nat.add_assoc]
      · rw [← ih, Nat.add_assoc]
    | terminate j => exact ih o

theorem runRanges_append (a b : List Nat) (o : Nat) : runRanges o (a ++ b) = runRanges o a ++ runRanges (o + a.sum) b := by
  induction a generalizing o with
  | nil => rfl
  | cons n a ih => rw [List.cons_append, runRanges, runRanges, ih, List.cons_append, List.sum_cons, Nat.add_assoc]

theorem runRanges_shift (a : List Nat) (o c : Nat) : runRanges (c + o) a = (runRanges o a).map fun r => (c + r.1, r.2) := by
  induction a generalizing o with
  | nil => rfl
  | cons n a ih => rw [runRanges, runRanges, List.map_cons, ← ih, Nat.add_assoc]

/-- The bytes of the samples are the bytes at those places (so `trakSamples` reads there). -/
theorem readRun_ranges (file : List Byte) (ns : List Nat) (o : Nat) : readRun file o ns = (runRanges o ns).map fun r => slice file r.1 r.2 := by
  induction ns generalizing o with
  | nil => rfl
  | cons n ns ih => rw [readRun, runRanges, List.map_cons, ih]

theorem readChunks_ranges (file : List Byte) (stsc : List StscEntry) (os : List Nat) (k : Nat) (sizes : List Nat) :
    readChunks file stsc k os sizes = (chunkRanges stsc k os sizes).map fun r => slice file r.1 r.2 := by
  induction os generalizing k sizes with
  | nil => rfl
  | cons o os ih => rw [readChunks, chunkRanges, List.map_append, readRun_ranges, ih]

theorem trakSamples_ranges (file : List Byte) (trak : Tree) :
    trakSamples file trak = (trakRanges trak).map fun rs => rs.map fun r => slice file r.1 r.2 := by
  unfold trakSamples trakRanges
  cases stbl trak with
  | none => rfl
  | some s =>
    simp only [Option.bind_some]
    cases stscEntries s with
    | none => rfl
    | some a =>
      simp only [Option.bind_some]
      cases stszSizes s with
      | none => rfl
      | some b =>
        simp only [Option.bind_some]
        cases stblOffsets s with
        | none => rfl
        | some c => simp only [Option.bind_some, Option.map_some, readChunks_ranges]

/-- Where samples are stored one after the other, every byte belongs to exactly one. -/
theorem places_partition (n : Nat) (es : List Event) (hn : ∀ i s, Event.sample i s ∈ es → i < n) (o : Nat) :
    Partition ((List.range n).map fun i => places i o es) o (mdat es).length := by
  have key : ∀ p i k, Belongs ((List.range n).map fun i => places i o es) p i k ↔
      i < n ∧ ∃ r : Nat × Nat, (places i o es)[k]? = some r ∧ r.1 ≤ p ∧ p < r.1 + r.2 := by
    intro p i k
    unfold Belongs
    constructor
    · rintro ⟨rs, r, h1, h2, h3, h4⟩
      rw [List.getElem?_map] at h1
      by_cases hi : i < n
      · rw [List.getElem?_range hi] at h1
        cases h1
        exact ⟨hi, r, h2, h3, h4⟩
      · rw [List.getElem?_eq_none (by simpa using hi)] at h1
        cases h1
    · rintro ⟨hi, r, h2, h3, h4⟩
      exact ⟨_, r, by rw [List.getElem?_map, List.getElem?_range hi]; rfl, h2, h3, h4⟩
  have main : ∀ es : List Event, (∀ i s, Event.sample i s ∈ es → i < n) → ∀ o,
      (∀ (p i k : Nat) (r : Nat × Nat), (places i o es)[k]? = some r → r.1 ≤ p → p < r.1 + r.2 → o ≤ p ∧ p < o + (mdat es).length) ∧
      (∀ p, o ≤ p → p < o + (mdat es).length → ∃ i k : Nat, (i < n ∧ ∃ r : Nat × Nat, (places i o es)[k]? = some r ∧ r.1 ≤ p ∧ p < r.1 + r.2) ∧
        ∀ (i' k' : Nat) (r : Nat × Nat), (places i' o es)[k']? = some r → r.1 ≤ p → p < r.1 + r.2 → i' = i ∧ k' = k) := by
    intro es
    induction es with
    | nil =>
      intro _ o
      refine ⟨fun p i k r h => ?_, fun p h1 h2 => ?_⟩
      · simp [places] at h
      · simp [mdat] at h2; omega
    | cons e es ih =>
      intro hn o
      have hn' : ∀ i s, Event.sample i s ∈ es → i < n := fun i s h => hn i s (List.mem_cons_of_mem _ h)
      cases e with
      | terminate j => exact ih hn' o
      | sample j s =>
        obtain ⟨a1, a2⟩ := ih hn' (o + s.data.length)
        have hj := hn j s List.mem_cons_self
        have hin : ∀ (p i k : Nat) (r : Nat × Nat), (places i o (.sample j s :: es))[k]? = some r → r.1 ≤ p → p < r.1 + r.2 →
            (i = j ∧ k = 0 ∧ o ≤ p ∧ p < o + s.data.length) ∨
            (∃ k', k = (if j = i then k' + 1 else k') ∧ (places i (o + s.data.length) es)[k']? = some r ∧
              o + s.data.length ≤ p ∧ p < o + s.data.length + (mdat es).length) := by
          intro p i k r h h1 h2
          rw [places] at h
          by_cases hji : j = i
          · rw [if_pos hji] at h
            cases k with
            | zero =>
              rw [List.getElem?_cons_zero] at h
              cases h
              exact .inl ⟨hji.symm, rfl, h1, h2⟩
            | succ k =>
              rw [List.getElem?_cons_succ] at h
              obtain ⟨b1, b2⟩ := a1 p i k r h h1 h2
              exact .inr ⟨k, by rw [if_pos hji], h, b1, b2⟩
          · rw [if_neg hji] at h
            obtain ⟨b1, b2⟩ := a1 p i k r h h1 h2
            exact .inr ⟨k, by rw [if_neg hji], h, b1, b2⟩
        have hlen : (mdat (.sample j s :: es)).length = s.data.length + (mdat es).length := by rw [mdat, List.length_append]
        rw [hlen]
        refine ⟨?_, ?_⟩
        · intro p i k r h h1 h2
          rcases hin p i k r h h1 h2 with ⟨-, -, b1, b2⟩ | ⟨k', -, -, b1, b2⟩ <;> omega
        · intro p h1 h2
          by_cases hp : p < o + s.data.length
          · refine ⟨j, 0, ⟨hj, (o, s.data.length), ?_, h1, hp⟩, ?_⟩
            · rw [places, if_pos rfl]; rfl
            · intro i' k' r h b1 b2
              rcases hin p i' k' r h b1 b2 with ⟨c1, c2, -, -⟩ | ⟨k'', -, -, c1, c2⟩
              · exact ⟨c1, c2⟩
              · omega
          · obtain ⟨i, k, ⟨hi, r, c1, c2, c3⟩, huniq⟩ := a2 p (by omega) (by omega)
            refine ⟨i, if j = i then k + 1 else k, ⟨hi, r, ?_, c2, c3⟩, ?_⟩
            · rw [places]
              split
              · rw [List.getElem?_cons_succ]; exact c1
              · exact c1
            · intro i' k' r' h b1 b2
              rcases hin p i' k' r' h b1 b2 with ⟨-, -, c1, c2⟩ | ⟨k'', hk, c1, -, -⟩
              · omega
              · obtain ⟨rfl, rfl⟩ := huniq i' k'' r' c1 b1 b2
                exact ⟨rfl, hk⟩
  obtain ⟨m1, m2⟩ := main es hn o
  refine ⟨fun p h1 h2 => ?_, fun p i k h => ?_⟩
  · obtain ⟨i, k, h3, h4⟩ := m2 p h1 h2
    refine ⟨i, k, (key p i k).mpr h3, fun i' k' h => ?_⟩
    obtain ⟨-, r, c1, c2, c3⟩ := (key p i' k').mp h
    exact h4 i' k' r c1 c2 c3
  · obtain ⟨-, r, c1, c2, c3⟩ := (key p i k).mp h
    exact m1 p i k r c1 c2 c3

end Mp4.Spec
