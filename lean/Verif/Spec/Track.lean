import Verif.Model.Box

/-! # Specification: samples, chunks and sample tables (ISO/IEC 14496-12 8.6, 8.7)

Independent of the model of `Track` and of the writers; only the types of the table entries are taken from the boxes.
-/

namespace Mp4

/-- A sample handed to a track. -/
structure Sample where
  timestamp : BitVec 64
  data : List Byte
  key : Bool
  deriving DecidableEq, Repr

/-- What can happen to a track before it is finalized: a sample is stored, or `terminateCurrentChunk()` is called. -/
inductive TrackCall where
  | sample (s : Sample)
  | terminate
  deriving DecidableEq, Repr

namespace Spec

/-- The samples stored, in order. -/
def samples : List TrackCall → List Sample
  | [] => []
  | .sample s :: h => s :: samples h
  | .terminate :: h => samples h

/-- The samples grouped into chunks: a chunk ends where the caller terminated it, empty chunks do not count.  `cur` are the samples
of the chunk under construction. -/
def chunks (cur : List Sample) : List TrackCall → List (List Sample)
  | [] => if cur = [] then [] else [cur]
  | .terminate :: h => (if cur = [] then [] else [cur]) ++ chunks [] h
  | .sample s :: h => chunks (cur ++ [s]) h

/-- The numbers of the key samples, counting from `n`. -/
def keyNumbers (n : Nat) : List Sample → List Nat
  | [] => []
  | s :: ss => (if s.key then [n] else []) ++ keyNumbers (n + 1) ss

/-- The duration of each sample: the time to the next one, and from the last one to the end of the track. -/
def durations (ending : BitVec 64) : List (BitVec 64) → List (BitVec 32)
  | [] => []
  | [t] => [(ending - t).setWidth 32]
  | t :: t' :: ts => (t' - t).setWidth 32 :: durations ending (t' :: ts)

/-- The sample durations an `stts` box stands for (8.6.1.2). -/
def sttsDurations (entries : List SttsEntry) : List (BitVec 32) :=
  entries.flatMap fun e => List.replicate e.sample_count.toNat e.sample_duration

/-- The number of samples in chunk number `chunk` (from 1) according to an `stsc` box: what the last entry whose first chunk
is not behind it says (8.7.4). -/
def samplesPerChunk (entries : List StscEntry) (chunk : Nat) : Nat :=
  match (entries.filter fun e => e.first_chunk.toNat ≤ chunk).getLast? with
  | some e => e.samples_per_chunk.toNat
  | none => 0

/-- The chunk offsets in an `stco` or `co64` box (8.7.5). -/
def chunkOffsets : BoxData → Option (List Nat)
  | .stco b => some (b.chunk_offsets.map (·.toNat))
  | .co64 b => some (b.chunk_offsets.map (·.toNat))
  | _ => none

/-- `R` holds between any two neighbours. -/
def Adjacent {α : Type} (R : α → α → Prop) : List α → Prop
  | a :: b :: l => R a b ∧ Adjacent R (b :: l)
  | _ => True

theorem chunks_flatten (h : List TrackCall) : ∀ cur, (chunks cur h).flatten = cur ++ samples h := by
  induction h with
  | nil => intro cur; unfold chunks samples; split <;> simp_all
  | cons c h ih =>
    intro cur
    cases c with
    | sample s => rw [chunks, samples, ih]; simp
    | terminate => rw [chunks, samples, List.flatten_append, ih]; split <;> simp_all

theorem chunks_ne_nil (h : List TrackCall) : ∀ cur, ∀ c ∈ chunks cur h, c ≠ [] := by
  induction h with
  | nil => intro cur c hc; unfold chunks at hc; split at hc <;> simp_all
  | cons c h ih =>
    intro cur
    cases c with
    | sample s => rw [chunks]; exact ih _
    | terminate =>
      intro c hc
      rw [chunks, List.mem_append] at hc
      rcases hc with hc | hc
      · split at hc <;> simp_all
      · exact ih _ c hc

theorem keyNumbers_bounds (ss : List Sample) : ∀ n, ∀ k ∈ keyNumbers n ss, n ≤ k ∧ k < n + ss.length := by
  induction ss with
  | nil => intro n k hk; simp [keyNumbers] at hk
  | cons s ss ih =>
    intro n k hk
    rw [keyNumbers, List.mem_append] at hk
    rw [List.length_cons]
    rcases hk with hk | hk
    · split at hk <;> simp at hk; omega
    · have := ih _ k hk; omega

theorem keyNumbers_increasing (ss : List Sample) : ∀ n, (keyNumbers n ss).Pairwise (· < ·) := by
  induction ss with
  | nil => intro n; simp [keyNumbers]
  | cons s ss ih =>
    intro n
    rw [keyNumbers, List.pairwise_append]
    refine ⟨by split <;> simp, ih _, ?_⟩
    intro a ha b hb
    have := keyNumbers_bounds ss _ b hb
    split at ha <;> simp at ha
    omega

/-- The number `k` is in the list exactly when sample number `k` is a key sample. -/
theorem mem_keyNumbers (ss : List Sample) : ∀ n k, k ∈ keyNumbers n ss ↔ ∃ i s, ss[i]? = some s ∧ s.key = true ∧ k = n + i := by
  induction ss with
  | nil => intro n k; simp [keyNumbers]
  | cons s ss ih =>
    intro n k
    rw [keyNumbers, List.mem_append, ih]
    constructor
    · rintro (h | ⟨i, s', h1, h2, rfl⟩)
      · split at h
        · rename_i hs
          simp at h
          exact ⟨0, s, rfl, hs, by omega⟩
        · simp at h
      · exact ⟨i + 1, s', by simpa using h1, h2, by omega⟩
    · rintro ⟨i, s', h1, h2, rfl⟩
      cases i with
      | zero => simp at h1; subst h1; left; simp [h2]
      | succ i => right; exact ⟨i, s', by simpa using h1, h2, by omega⟩

end Spec
end Mp4
