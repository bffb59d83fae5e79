import Verif.Lemmas.Track

/-! # C32 - C37: tracks and their sample tables -/

namespace Mp4

/-! ### C32: stts -/

/-- **C32.** For every list of sample durations (below 2^32 of them) the entries made for the `stts` box stand for exactly that
list; no entry is empty, and neighbouring entries differ in their duration. -/
theorem C32_entries (ds : List (BitVec 32)) (hn : ds.length < 2 ^ 32) :
    Spec.sttsDurations (make_stts_entries ds) = ds ∧
    (∀ e ∈ make_stts_entries ds, 0 < e.sample_count.toNat) ∧
    Spec.Adjacent (fun a b => a.sample_duration ≠ b.sample_duration) (make_stts_entries ds) := by
  cases ds with
  | nil => exact ⟨rfl, by simp [make_stts_entries], by simp [make_stts_entries, Spec.Adjacent]⟩
  | cons d ds =>
    rw [List.length_cons] at hn
    rw [make_stts_entries]
    refine ⟨?_, sttsGo_minimal ds d 1 (by decide) (by simp; omega)⟩
    rw [sttsGo_expand ds d 1 (by decide) (by simp; omega)]
    rfl

/-- **C32** The counts add up to the number of samples. -/
theorem C32_counts (ds : List (BitVec 32)) (hn : ds.length < 2 ^ 32) :
    ((make_stts_entries ds).map (·.sample_count.toNat)).sum = ds.length := by
  have h := congrArg List.length (C32_entries ds hn).1
  rw [Spec.sttsDurations, List.length_flatMap] at h
  simpa using h

/-- **C32** The `stts` box of a track holds these entries. -/
theorem C32_box (t : Track) (path : List BoxType) (hn : t.sample_durations.length < 2 ^ 32) :
    ∃ b : Stts, (t.stts path).box.data = .stts b ∧ (t.stts path).box.type = fourcc "stts" ∧
      Spec.sttsDurations b.entries = t.sample_durations :=
  ⟨_, rfl, rfl, (C32_entries _ hn).1⟩

theorem sttsGo_replicate (d : BitVec 32) (n : Nat) : ∀ count : BitVec 32,
    sttsGo d count (List.replicate n d) = sttsGo d (count + BitVec.ofNat 32 n) [] := by
  induction n with
  | zero => intro count; simp
  | succ n ih =>
    intro count
    have h : sttsGo d count (d :: List.replicate n d) = sttsGo d (count + 1) (List.replicate n d) := by
      rw [sttsGo, if_pos rfl]
    rw [List.replicate_succ, h, ih]
    have h2 : count + 1 + BitVec.ofNat 32 n = count + BitVec.ofNat 32 (n + 1) := by
      rw [BitVec.add_assoc, BitVec.ofNat_add]
      congr 1
      exact BitVec.add_comm _ _
    rw [h2]

/-- **C32** The bound is sharp: 2^32 samples of equal duration leave an empty table (the count wraps to zero). -/
theorem C32_wraps (d : BitVec 32) : make_stts_entries (List.replicate (2 ^ 32) d) = [] := by
  have h : (2 : Nat) ^ 32 = (2 ^ 32 - 1) + 1 := by decide
  rw [h, List.replicate_succ, make_stts_entries, sttsGo_replicate]
  rfl

example : make_stts_entries [10, 10, 10, 7, 10, 10] = [⟨3, 10⟩, ⟨1, 7⟩, ⟨2, 10⟩] := by decide +kernel

/-! ### C33: stsc -/

/-- **C33.** For every list of chunks (below 2^32 - 1 of them) the entries made for the `stsc` box give every chunk its number of
samples.  The first chunk numbers strictly increase from 1, every entry refers to sample description 1, and neighbouring entries
differ in the number of samples. -/
theorem C33_entries (chunks : List ChunkInfo) (hn : chunks.length < 2 ^ 32 - 1) :
    (∀ k c, chunks[k]? = some c → Spec.samplesPerChunk (make_stsc_entries chunks) (k + 1) = c.number_of_samples.toNat) ∧
    (chunks ≠ [] → ∃ e es, make_stsc_entries chunks = e :: es ∧ e.first_chunk = 1) ∧
    (make_stsc_entries chunks).Pairwise (fun a b => a.first_chunk.toNat < b.first_chunk.toNat) ∧
    (∀ e ∈ make_stsc_entries chunks, e.sample_description_index = 1) ∧
    Spec.Adjacent (fun a b => a.samples_per_chunk ≠ b.samples_per_chunk) (make_stsc_entries chunks) := by
  have h1 : (1#32).toNat + chunks.length < 2 ^ 32 := by
    have : (1#32).toNat = 1 := rfl
    omega
  obtain ⟨p1, p2⟩ := stscGo_props chunks (-1) 1 h1
  refine ⟨?_, ?_, p2, fun e he => (p1 e he).2, (stscGo_chain chunks (-1) 1).1⟩
  · intro k c hk
    have := stscGo_lookup chunks (-1) 1 0 h1 (Or.inr rfl) k c hk
    rw [show BitVec.toNat (1 : BitVec 32) + k = k + 1 from Nat.add_comm 1 k] at this
    exact this
  · intro hne
    obtain ⟨c, cs, rfl⟩ := List.exists_cons_of_ne_nil hne
    obtain ⟨es, h⟩ := stscGo_head (c :: cs) 1 c cs rfl
    exact ⟨_, es, h, rfl⟩

/-- **C33** The `stsc` box of a track holds these entries. -/
theorem C33_box (t : Track) (path : List BoxType) (hn : t.chunk_infos.length < 2 ^ 32 - 1) :
    ∃ b : Stsc, (t.stsc path).box.data = .stsc b ∧ (t.stsc path).box.type = fourcc "stsc" ∧
      ∀ k c, t.chunk_infos[k]? = some c → Spec.samplesPerChunk b.entries (k + 1) = c.number_of_samples.toNat :=
  ⟨_, rfl, rfl, (C33_entries _ hn).1⟩

example : make_stsc_entries [⟨0, 3, true⟩, ⟨9, 3, true⟩, ⟨20, 1, true⟩, ⟨30, 3, true⟩] =
    [⟨1, 3, 1⟩, ⟨3, 1, 1⟩, ⟨4, 3, 1⟩] := by decide +kernel

/-! ### C34: stco and co64 -/

/-- **C34.** When the offsets do not decrease, the offset box holds exactly the offsets in order, and it is the 64-bit one
exactly when some offset does not fit 32 bits. -/
theorem C34_offsets (chunks : List ChunkInfo) (hs : chunks.Pairwise fun a b => a.offset.toNat ≤ b.offset.toNat) :
    Spec.chunkOffsets (make_offset_box chunks).data = some (chunks.map (·.offset.toNat)) ∧
    ((make_offset_box chunks).type = fourcc "co64" ∨ (make_offset_box chunks).type = fourcc "stco") ∧
    ((make_offset_box chunks).type = fourcc "co64" ↔ ∃ c ∈ chunks, 2 ^ 32 ≤ c.offset.toNat) := by
  have hne : fourcc "stco" ≠ fourcc "co64" := by decide +kernel
  have key : ∀ x : BitVec 64, (x > 0xffffffff#64) ↔ 2 ^ 32 ≤ x.toNat := by
    intro x
    show (0xffffffff#64 < x) ↔ _
    rw [BitVec.lt_def]
    have : (0xffffffff#64).toNat = 2 ^ 32 - 1 := rfl
    omega
  have hle : ∀ c ∈ chunks, ∀ last, chunks.getLast? = some last → c.offset.toNat ≤ last.offset.toNat := by
    intro c hc last hl
    obtain ⟨l, rfl⟩ := List.getLast?_eq_some_iff.mp hl
    rw [List.pairwise_append] at hs
    rcases List.mem_append.mp hc with h | h
    · exact hs.2.2 c h last (by simp)
    · simp at h; subst h; exact Nat.le_refl _
  unfold make_offset_box
  cases hl : chunks.getLast? with
  | none =>
    rw [List.getLast?_eq_none_iff] at hl
    subst hl
    refine ⟨rfl, Or.inr rfl, ?_⟩
    simp [hne]
  | some last =>
    dsimp only
    have hmem := List.mem_of_getLast? hl
    by_cases hb : last.offset > 0xffffffff#64
    · rw [if_pos (by simpa using hb)]
      refine ⟨by simp [Spec.chunkOffsets], Or.inl rfl, ?_⟩
      simp only [true_iff]
      exact ⟨last, hmem, (key _).mp hb⟩
    · rw [if_neg (by simpa using hb)]
      have hlt : last.offset.toNat < 2 ^ 32 := by
        have := (not_congr (key last.offset)).mp hb; omega
      have hall : ∀ c ∈ chunks, c.offset.toNat < 2 ^ 32 := fun c hc => by
        have := hle c hc last hl; omega
      refine ⟨?_, Or.inr rfl, ?_⟩
      · simp only [Spec.chunkOffsets, List.map_map, Option.some.injEq]
        apply List.map_congr_left
        intro c hc
        have := hall c hc
        simp only [Function.comp_apply, BitVec.toNat_setWidth]
        omega
      · constructor
        · intro h; exact absurd h hne
        · rintro ⟨c, hc, h⟩
          have := hall c hc; omega

/-- **C34** The condition is needed: with a decreasing offset a large one is cut to 32 bits. -/
theorem C34_needs_order : Spec.chunkOffsets (make_offset_box [⟨0x100000005, 1, true⟩, ⟨7, 1, true⟩]).data = some [5, 7] := by
  decide +kernel

example : Spec.chunkOffsets (make_offset_box [⟨7, 1, true⟩, ⟨0x100000005, 1, true⟩]).data = some [7, 0x100000005] := by
  decide +kernel

/-! ### C35 - C37: histories -/

section
variable {σ : Type} [MdatWriter σ]

theorem new_fresh {p : TrackParameters} {codec : Codec} {t : Track} (h : Track.new p codec = .ok t) :
    t.finalized = false ∧ t.mdat_sample_sizes = [] ∧ t.chunk_infos = [] ∧ t.current_chunk_info = {} ∧
    t.sample_durations = [] ∧ t.key_sample_numbers = [] ∧ t.codec = codec ∧
    t.durationInTimescale = p.durationInTimescale ∧ t.track_id = p.track_id := by
  unfold Track.new at h
  split at h
  · cases h
  · cases h; simp

/-- **C35.** After any sequence of samples and `terminateCurrentChunk()` calls (below 2^32 samples), whatever the writer does: the
finalized track has exactly the chunks the caller delimited, one size per sample (mod 2^32), one duration per sample, and for a
video track the numbers of the key samples, for an audio track none. -/
theorem C35_bookkeeping (p : TrackParameters) (codec : Codec) (t : Track) (w : σ) (h : List TrackCall)
    (hnew : Track.new p codec = .ok t) (hn : (Spec.samples h).length < 2 ^ 32) :
    let t' := (t.run w h).1.finalize
    t'.chunk_infos.map (·.number_of_samples.toNat) = (Spec.chunks [] h).map List.length ∧
    t'.mdat_sample_sizes = (Spec.samples h).map (fun s => BitVec.ofNat 32 s.data.length) ∧
    t'.sample_durations.length = (Spec.samples h).length ∧
    t'.key_sample_numbers.map (·.toNat) =
      (if codec.handler = .vide then Spec.keyNumbers 1 (Spec.samples h) else []) := by
  intro t'
  obtain ⟨f1, f2, f3, f4, f5, f6, f7, -⟩ := new_fresh hnew
  obtain ⟨g1, g2, -⟩ := finalize_fields (t.run w h).1
  refine ⟨?_, ?_, ?_, ?_⟩
  · rw [run_finalize_chunks h t w [] f1 (by rw [Track.OpenChunk, f4]; exact ⟨rfl, rfl⟩) (by simpa using hn), f3]
    rfl
  · rw [g1, run_sizes, f2]; rfl
  · rw [run_durations h t w f1 f2, f5]
    have : ∀ l : List (BitVec 64), (Spec.durations t.durationInTimescale l).length = l.length := by
      intro l
      induction l with
      | nil => rfl
      | cons a l ih => cases l <;> simp_all [Spec.durations]
    simp [this]
  · rw [g2, run_keys h t w (by rw [f2]; simpa using hn), f2, f6, f7]
    rfl

/-- **C35** In numbers: the sample counts of the chunks add up to the number of sizes, which is the number of durations; no chunk is
empty; the key sample numbers strictly increase and lie between 1 and the number of samples. -/
theorem C35_counts (p : TrackParameters) (codec : Codec) (t : Track) (w : σ) (h : List TrackCall)
    (hnew : Track.new p codec = .ok t) (hn : (Spec.samples h).length < 2 ^ 32) :
    let t' := (t.run w h).1.finalize
    (t'.chunk_infos.map (·.number_of_samples.toNat)).sum = t'.mdat_sample_sizes.length ∧
    t'.sample_durations.length = t'.mdat_sample_sizes.length ∧
    (∀ c ∈ t'.chunk_infos, 0 < c.number_of_samples.toNat) ∧
    (t'.key_sample_numbers.map (·.toNat)).Pairwise (· < ·) ∧
    ∀ k ∈ t'.key_sample_numbers, 1 ≤ k.toNat ∧ k.toNat ≤ t'.mdat_sample_sizes.length := by
  intro t'
  obtain ⟨h1, h2, h3, h4⟩ := C35_bookkeeping p codec t w h hnew hn
  have hsz : t'.mdat_sample_sizes.length = (Spec.samples h).length := by
    show (t.run w h).1.finalize.mdat_sample_sizes.length = _
    rw [h2]; simp
  refine ⟨?_, ?_, ?_, ?_, ?_⟩
  · show ((t.run w h).1.finalize.chunk_infos.map _).sum = _
    rw [h1, hsz]
    have := congrArg List.length (Spec.chunks_flatten h [])
    rw [List.length_flatten] at this
    simpa using this
  · rw [hsz]; exact h3
  · intro c hc
    have : c.number_of_samples.toNat ∈ (Spec.chunks [] h).map List.length := by
      rw [← h1]
      exact List.mem_map_of_mem hc
    obtain ⟨l, hl, he⟩ := List.mem_map.mp this
    have := Spec.chunks_ne_nil h [] l hl
    rw [← he]
    exact List.length_pos_iff.mpr this
  · show ((t.run w h).1.finalize.key_sample_numbers.map _).Pairwise _
    rw [h4]
    split
    · exact Spec.keyNumbers_increasing _ _
    · exact List.Pairwise.nil
  · intro k hk
    have hk' : k.toNat ∈ (t.run w h).1.finalize.key_sample_numbers.map (·.toNat) := List.mem_map_of_mem hk
    rw [h4] at hk'
    split at hk'
    · have := Spec.keyNumbers_bounds _ _ _ hk'
      rw [hsz]; omega
    · cases hk'

/-- **C35** The condition "before finalize" is needed: terminating a chunk after `appendTrakBoxInfo` lists its samples twice. -/
theorem C35_terminate_after_finalize (t : Track) (hf : t.finalized = false) (hc : t.current_chunk_info.number_of_samples > 0) :
    t.finalize.terminateCurrentChunk.chunk_infos = t.chunk_infos ++ [t.current_chunk_info, t.current_chunk_info] := by
  have h1 : t.finalize.chunk_infos = t.chunk_infos ++ [t.current_chunk_info] := by
    unfold Track.finalize
    rw [hf]
    simp only [Bool.false_eq_true, if_false]
    rw [if_pos hc]
  have h2 : t.finalize.current_chunk_info = t.current_chunk_info := by
    unfold Track.finalize; split <;> rfl
  unfold Track.terminateCurrentChunk
  rw [h2, if_pos hc]
  simp [h1]

/-- **C36.** After any history the durations of the finalized track are the time stamp differences (mod 2^32): from each sample to the
next and from the last one to the end of the track. -/
theorem C36_durations (p : TrackParameters) (codec : Codec) (t : Track) (w : σ) (h : List TrackCall)
    (hnew : Track.new p codec = .ok t) :
    (t.run w h).1.finalize.sample_durations =
      Spec.durations p.durationInTimescale ((Spec.samples h).map (·.timestamp)) := by
  obtain ⟨f1, f2, -, -, f5, -, -, f8, -⟩ := new_fresh hnew
  rw [run_durations h t w f1 f2, f5, f8]
  rfl

theorem durations_sum (ending : BitVec 64) (ts : List (BitVec 64)) : ∀ t0,
    (Spec.durations ending (t0 :: ts)).foldr (· + ·) 0 = (ending - t0).setWidth 32 := by
  induction ts with
  | nil => intro t0; simp [Spec.durations]
  | cons t1 ts ih =>
    intro t0
    rw [Spec.durations, List.foldr_cons, ih]
    apply BitVec.eq_of_toNat_eq
    simp only [BitVec.toNat_add, BitVec.toNat_setWidth, BitVec.toNat_sub]
    have := ending.isLt; have := t0.isLt; have := t1.isLt
    omega

/-- **C36** They add up (mod 2^32) to the track duration minus the first time stamp. -/
theorem C36_telescope (p : TrackParameters) (codec : Codec) (t : Track) (w : σ) (h : List TrackCall)
    (hnew : Track.new p codec = .ok t) (s : Sample) (ss : List Sample) (hs : Spec.samples h = s :: ss) :
    (t.run w h).1.finalize.sample_durations.foldr (· + ·) 0 = (p.durationInTimescale - s.timestamp).setWidth 32 := by
  rw [C36_durations p codec t w h hnew, hs, List.map_cons, durations_sum]

/-- **C36** Without wrapping: when the time stamps do not decrease, the track ends after the last one and no step is 2^32
or longer, each duration is the true difference. -/
theorem C36_exact (ending : BitVec 64) (ts : List (BitVec 64)) (i : Nat) (a b : BitVec 64)
    (ha : ts[i]? = some a) (hb : (ts ++ [ending])[i + 1]? = some b) (hab : a.toNat ≤ b.toNat)
    (hlt : b.toNat - a.toNat < 2 ^ 32) :
    ((Spec.durations ending ts)[i]?.map (·.toNat)) = some (b.toNat - a.toNat) := by
  have hsub : ((b - a).setWidth 32).toNat = b.toNat - a.toNat := by
    simp only [BitVec.toNat_setWidth, BitVec.toNat_sub]
    have := a.isLt; have := b.isLt
    omega
  induction ts generalizing i with
  | nil => simp at ha
  | cons t ts ih =>
    cases ts with
    | nil =>
      cases i with
      | zero =>
        simp at ha hb
        subst ha; subst hb
        simp [Spec.durations, hsub]
      | succ i => simp at ha
    | cons t' ts =>
      rw [Spec.durations]
      cases i with
      | zero =>
        simp at ha hb
        subst ha; subst hb
        simp [hsub]
      | succ i =>
        rw [List.getElem?_cons_succ]
        exact ih i (by simpa using ha) (by simpa using hb)

/-- **C37.** Finalizing twice is the same as finalizing once. -/
theorem C37_idempotent (t : Track) : t.finalize.finalize = t.finalize := by
  have : t.finalize.finalized = true := by
    unfold Track.finalize
    split
    · assumption
    · rfl
  generalize t.finalize = u at this ⊢
  unfold Track.finalize
  rw [if_pos this]

/-- **C37** Appending the boxes of a track twice gives two equal `trak` boxes and leaves the track as after the first time. -/
theorem C37_append_twice (t : Track) (b : Box) (path : List BoxType) (ls : List Tree) :
    let (t1, moov1) := t.appendTrakBoxInfo (.node b path ls)
    let (t2, moov2) := t1.appendTrakBoxInfo moov1
    t2 = t1 ∧ ∃ trak, moov1 = .node b path (ls ++ [trak]) ∧ moov2 = .node b path (ls ++ [trak, trak]) := by
  unfold Track.appendTrakBoxInfo
  dsimp only
  rw [C37_idempotent]
  exact ⟨rfl, t.finalize.trak path, rfl, by simp⟩

end

/-- A history with an empty chunk, a chunk of two samples, key frames, and what comes out. -/
example :
    let w : MdatWriter (List Byte) := ⟨fun w => BitVec.ofNat 64 w.length, fun w d => w ++ d⟩
    let h : List TrackCall := [.sample ⟨0, [1, 2, 3], true⟩, .sample ⟨3000, [4], false⟩, .terminate, .terminate,
      .sample ⟨6500, [5, 6], true⟩]
    ∃ t, Track.new ⟨90000, 9000, 100, 0, 0, 1⟩ (.vpx true 320 240 0 0) = .ok t ∧
      let t' := (Track.run (σ := List Byte) t [] h).1.finalize
      t'.chunk_infos = [⟨0, 2, true⟩, ⟨4, 1, true⟩] ∧ t'.mdat_sample_sizes = [3, 1, 2] ∧
      t'.sample_durations = [3000, 3500, 2500] ∧ t'.key_sample_numbers = [1, 3] := by
  refine ⟨_, rfl, ?_⟩
  decide +kernel

end Mp4
