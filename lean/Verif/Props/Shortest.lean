import Verif.Props.Track

/-! # C95: the run-length tables are as short as possible -/

namespace Mp4

/-- The number of runs of equal elements. -/
def runs {α : Type} [DecidableEq α] : List α → Nat
  | [] => 0
  | [_] => 1
  | a :: b :: l => (if a = b then 0 else 1) + runs (b :: l)

section
variable {α : Type} [DecidableEq α]

theorem runs_cons_le (a : α) (l : List α) : runs l ≤ runs (a :: l) ∧ runs (a :: l) ≤ 1 + runs l := by
  cases l with
  | nil => exact ⟨Nat.zero_le _, Nat.le_refl _⟩
  | cons b l =>
    rw [runs]
    split <;> omega

theorem runs_same (a : α) (l : List α) : runs (a :: a :: l) = runs (a :: l) := by
  rw [runs, if_pos rfl, Nat.zero_add]

theorem runs_replicate_cons (a : α) (n : Nat) (l : List α) : runs (List.replicate (n + 1) a ++ l) = runs (a :: l) := by
  induction n with
  | zero => rfl
  | succ n ih =>
    rw [List.replicate_succ, List.cons_append, List.replicate_succ, List.cons_append, runs_same]
    rw [List.replicate_succ, List.cons_append] at ih
    exact ih

theorem runs_replicate_le (a : α) (n : Nat) (l : List α) : runs (List.replicate n a ++ l) ≤ 1 + runs l := by
  cases n with
  | zero => rw [List.replicate_zero, List.nil_append]; omega
  | succ n => rw [runs_replicate_cons]; exact (runs_cons_le a l).2

end

theorem stts_runs_le (es : List SttsEntry) : runs (Spec.sttsDurations es) ≤ es.length := by
  induction es with
  | nil => exact Nat.le_refl _
  | cons e es ih =>
    have := runs_replicate_le e.sample_duration e.sample_count.toNat (Spec.sttsDurations es)
    rw [List.length_cons]
    show runs (List.replicate _ _ ++ Spec.sttsDurations es) ≤ _
    omega

/-- A table without empty entries, in which neighbours differ, has one entry for every run. -/
theorem stts_runs_eq (es : List SttsEntry) (h0 : ∀ e ∈ es, 0 < e.sample_count.toNat)
    (h : Spec.Adjacent (fun a b : SttsEntry => a.sample_duration ≠ b.sample_duration) es) : runs (Spec.sttsDurations es) = es.length := by
  induction es with
  | nil => rfl
  | cons e es ih =>
    obtain ⟨n, hn⟩ : ∃ n, e.sample_count.toNat = n + 1 := ⟨e.sample_count.toNat - 1, by have := h0 e List.mem_cons_self; omega⟩
    show runs (List.replicate e.sample_count.toNat _ ++ Spec.sttsDurations es) = _
    rw [hn, runs_replicate_cons]
    cases es with
    | nil => rfl
    | cons f es =>
      have ih := ih (fun x hx => h0 x (List.mem_cons_of_mem _ hx)) h.2
      obtain ⟨m, hm⟩ : ∃ m, f.sample_count.toNat = m + 1 :=
        ⟨f.sample_count.toNat - 1, by have := h0 f (List.mem_cons_of_mem _ List.mem_cons_self); omega⟩
      have hx : Spec.sttsDurations (f :: es) = f.sample_duration :: (List.replicate m f.sample_duration ++ Spec.sttsDurations es) := by
        show List.replicate f.sample_count.toNat _ ++ Spec.sttsDurations es = _
        rw [hm, List.replicate_succ, List.cons_append]
      rw [hx] at ih ⊢
      rw [runs, if_neg h.1, ih, List.length_cons (as := f :: es)]
      omega

/-- **C95.** The `stts` box of a track is as short as possible: every table that stands for the same durations has at least as many entries. -/
theorem C95_stts (t : Track) (path : List BoxType) (hn : t.sample_durations.length < 2 ^ 32) :
    ∃ b : Stts, (t.stts path).box.data = .stts b ∧ Spec.sttsDurations b.entries = t.sample_durations ∧
      ∀ es, Spec.sttsDurations es = t.sample_durations → b.entries.length ≤ es.length := by
  obtain ⟨h1, h2, h3⟩ := C32_entries t.sample_durations hn
  refine ⟨_, rfl, h1, fun es he => ?_⟩
  have := stts_runs_le es
  rw [he, ← h1, stts_runs_eq _ h2 h3] at this
  exact this

/-! ### It is the only one that short -/

theorem durations_head {es : List SttsEntry} (h0 : ∀ e ∈ es, 0 < e.sample_count.toNat) (a : SttsEntry)
    (h : Spec.Adjacent (fun a b : SttsEntry => a.sample_duration ≠ b.sample_duration) (a :: es)) :
    (Spec.sttsDurations es).head? ≠ some a.sample_duration := by
  cases es with
  | nil => intro h; cases h
  | cons f es =>
    have hf : Spec.sttsDurations (f :: es) = List.replicate f.sample_count.toNat f.sample_duration ++ Spec.sttsDurations es := rfl
    obtain ⟨m, hm⟩ : ∃ m, f.sample_count.toNat = m + 1 := ⟨f.sample_count.toNat - 1, by have := h0 f List.mem_cons_self; omega⟩
    rw [hf, hm, List.replicate_succ, List.cons_append, List.head?_cons]
    intro h'
    exact h.1 (Option.some.inj h').symm

/-- A table with as many entries as its durations have runs has no empty entries, and neighbours differ. -/
theorem stts_tight (es : List SttsEntry) (h : runs (Spec.sttsDurations es) = es.length) :
    (∀ e ∈ es, 0 < e.sample_count.toNat) ∧ Spec.Adjacent (fun a b : SttsEntry => a.sample_duration ≠ b.sample_duration) es := by
  induction es with
  | nil => exact ⟨by simp, trivial⟩
  | cons e es ih =>
    have hd : Spec.sttsDurations (e :: es) = List.replicate e.sample_count.toNat e.sample_duration ++ Spec.sttsDurations es := rfl
    rw [hd, List.length_cons] at h
    have h1 := runs_replicate_le e.sample_duration e.sample_count.toNat (Spec.sttsDurations es)
    have h2 := stts_runs_le es
    obtain ⟨i1, i2⟩ := ih (by omega)
    have hpos : 0 < e.sample_count.toNat := by
      rcases Nat.eq_zero_or_pos e.sample_count.toNat with h0 | h0
      · rw [h0, List.replicate_zero, List.nil_append] at h
        omega
      · exact h0
    refine ⟨fun x hx => ?_, ?_⟩
    · rcases List.mem_cons.1 hx with rfl | hx
      · exact hpos
      · exact i1 x hx
    · cases es with
      | nil => trivial
      | cons f es =>
        refine ⟨fun hef => ?_, i2⟩
        obtain ⟨n, hn⟩ : ∃ n, e.sample_count.toNat = n + 1 := ⟨e.sample_count.toNat - 1, by omega⟩
        obtain ⟨m, hm⟩ : ∃ m, f.sample_count.toNat = m + 1 := ⟨f.sample_count.toNat - 1, by have := i1 f List.mem_cons_self; omega⟩
        have hf : Spec.sttsDurations (f :: es) = f.sample_duration :: (List.replicate m f.sample_duration ++ Spec.sttsDurations es) := by
          show List.replicate f.sample_count.toNat _ ++ Spec.sttsDurations es = _
          rw [hm, List.replicate_succ, List.cons_append]
        rw [hn, runs_replicate_cons, hf, hef, runs_same, ← hf] at h
        omega

theorem replicate_append_inj {α : Type} (a : α) : ∀ (n m : Nat) (X Y : List α), X.head? ≠ some a → Y.head? ≠ some a →
    List.replicate n a ++ X = List.replicate m a ++ Y → n = m ∧ X = Y := by
  intro n
  induction n with
  | zero =>
    intro m X Y hX _ h
    cases m with
    | zero => exact ⟨rfl, h⟩
    | succ m =>
      rw [List.replicate_zero, List.nil_append] at h
      rw [h, List.replicate_succ] at hX
      exact absurd rfl hX
  | succ n ih =>
    intro m X Y hX hY h
    cases m with
    | zero =>
      rw [List.replicate_zero, List.nil_append] at h
      rw [← h, List.replicate_succ] at hY
      exact absurd rfl hY
    | succ m =>
      rw [List.replicate_succ, List.replicate_succ, List.cons_append, List.cons_append] at h
      obtain ⟨h1, h2⟩ := ih m X Y hX hY (List.cons.inj h).2
      exact ⟨by omega, h2⟩

/-- Two tables without empty entries, in which neighbours differ, are equal if they stand for the same durations. -/
theorem stts_unique (es : List SttsEntry) : ∀ es' : List SttsEntry,
    (∀ e ∈ es, 0 < e.sample_count.toNat) → Spec.Adjacent (fun a b : SttsEntry => a.sample_duration ≠ b.sample_duration) es →
    (∀ e ∈ es', 0 < e.sample_count.toNat) → Spec.Adjacent (fun a b : SttsEntry => a.sample_duration ≠ b.sample_duration) es' →
    Spec.sttsDurations es = Spec.sttsDurations es' → es = es' := by
  induction es with
  | nil =>
    intro es' _ _ h0 ha h
    have := stts_runs_eq es' h0 ha
    rw [← h] at this
    exact (List.length_eq_zero_iff.1 this.symm).symm
  | cons e es ih =>
    intro es' h0 ha h0' ha' h
    cases es' with
    | nil =>
      have := stts_runs_eq _ h0 ha
      rw [h] at this
      exact absurd this.symm (Nat.succ_ne_zero _)
    | cons f es' =>
      have t0 := fun x hx => h0 x (List.mem_cons_of_mem _ hx)
      have t0' := fun x hx => h0' x (List.mem_cons_of_mem _ hx)
      have x1 := durations_head t0 e ha
      have x2 := durations_head t0' f ha'
      have ta : Spec.Adjacent (fun a b : SttsEntry => a.sample_duration ≠ b.sample_duration) es := by
        cases es with
        | nil => trivial
        | cons _ _ => exact ha.2
      have ta' : Spec.Adjacent (fun a b : SttsEntry => a.sample_duration ≠ b.sample_duration) es' := by
        cases es' with
        | nil => trivial
        | cons _ _ => exact ha'.2
      have h : List.replicate e.sample_count.toNat e.sample_duration ++ Spec.sttsDurations es =
        List.replicate f.sample_count.toNat f.sample_duration ++ Spec.sttsDurations es' := h
      have hdur : e.sample_duration = f.sample_duration := by
        obtain ⟨n, hn⟩ : ∃ n, e.sample_count.toNat = n + 1 := ⟨e.sample_count.toNat - 1, by have := h0 e List.mem_cons_self; omega⟩
        obtain ⟨m, hm⟩ : ∃ m, f.sample_count.toNat = m + 1 := ⟨f.sample_count.toNat - 1, by have := h0' f List.mem_cons_self; omega⟩
        rw [hn, hm, List.replicate_succ, List.replicate_succ, List.cons_append, List.cons_append] at h
        exact (List.cons.inj h).1
      rw [← hdur] at h x2
      obtain ⟨k1, k2⟩ := replicate_append_inj _ _ _ _ _ x1 x2 h
      rw [ih es' t0 ta t0' ta' k2]
      congr 1
      cases e; cases f
      simp only at hdur k1
      rw [hdur, BitVec.eq_of_toNat_eq k1]

/-- **C95.** … and every other table that stands for them has more entries. -/
theorem C95_stts_only (t : Track) (path : List BoxType) (hn : t.sample_durations.length < 2 ^ 32) :
    ∃ b : Stts, (t.stts path).box.data = .stts b ∧
      ∀ es, Spec.sttsDurations es = t.sample_durations → es ≠ b.entries → b.entries.length < es.length := by
  obtain ⟨h1, h2, h3⟩ := C32_entries t.sample_durations hn
  refine ⟨_, rfl, fun es he hne => ?_⟩
  have h4 := stts_runs_le es
  have h5 := stts_runs_eq _ h2 h3
  rw [h1] at h5
  rw [he, h5] at h4
  refine Nat.lt_of_le_of_ne h4 (fun heq => hne ?_)
  obtain ⟨k1, k2⟩ := stts_tight es (by rw [he, h5]; exact heq)
  exact stts_unique es _ k1 k2 h2 h3 (by rw [he, h1])

/-! ### `stsc` -/

theorem length_le_of_subset : ∀ (l m : List Nat), l.Pairwise (· < ·) → (∀ x ∈ l, x ∈ m) → l.length ≤ m.length := by
  intro l
  induction l with
  | nil => intro m _ _; exact Nat.zero_le _
  | cons a l ih =>
    intro m hp hs
    have ha := hs a List.mem_cons_self
    have := ih (m.erase a) (List.Pairwise.of_cons hp) (fun x hx => by
      have hne : x ≠ a := by
        have := List.rel_of_pairwise_cons hp hx
        omega
      exact (List.mem_erase_of_ne hne).mpr (hs x (List.mem_cons_of_mem _ hx)))
    rw [List.length_erase_of_mem ha] at this
    have := List.length_pos_of_mem ha
    rw [List.length_cons]
    omega

/-- Where an entry begins the number of samples changes. -/
theorem stsc_changes : ∀ (cs : List ChunkInfo) (s : Int) (chunk : BitVec 32), chunk.toNat + cs.length < 2 ^ 32 →
    ∀ e ∈ stscGo s chunk cs, ∃ j c, cs[j]? = some c ∧ e.first_chunk.toNat = chunk.toNat + j ∧
      (j = 0 → s ≠ c.number_of_samples.toNat) ∧
      (∀ i b, j = i + 1 → cs[i]? = some b → b.number_of_samples ≠ c.number_of_samples) := by
  intro cs
  induction cs with
  | nil => intro s chunk _ e he; cases he
  | cons c cs ih =>
    intro s chunk hl e he
    rw [List.length_cons] at hl
    have hc : (chunk + 1).toNat = chunk.toNat + 1 := by
      rw [BitVec.toNat_add]
      show (chunk.toNat + 1) % 2 ^ 32 = _
      omega
    have tail : ∀ s' : Int, (s' = c.number_of_samples.toNat) → e ∈ stscGo s' (chunk + 1) cs →
        ∃ j c', (c :: cs)[j]? = some c' ∧ e.first_chunk.toNat = chunk.toNat + j ∧ (j = 0 → s ≠ c'.number_of_samples.toNat) ∧
          (∀ i b, j = i + 1 → (c :: cs)[i]? = some b → b.number_of_samples ≠ c'.number_of_samples) := by
      intro s' hs' he'
      obtain ⟨j, c', k1, k2, k3, k4⟩ := ih s' (chunk + 1) (by omega) e he'
      refine ⟨j + 1, c', by simpa using k1, by omega, fun h => by omega, ?_⟩
      intro i b hi hb
      have hi : i = j := by omega
      subst hi
      cases i with
      | zero =>
        simp only [List.getElem?_cons_zero, Option.some.injEq] at hb
        subst hb
        intro hx
        exact k3 rfl (by rw [hs', hx])
      | succ i => exact k4 i b rfl (by simpa using hb)
    rw [stscGo] at he
    split at he
    · rename_i hne
      rcases List.mem_cons.mp he with rfl | he
      · exact ⟨0, c, rfl, rfl, fun _ => hne, fun i b hi => by omega⟩
      · exact tail _ rfl he
    · rename_i he2
      exact tail s (by simpa using he2) he

/-- Every table that gives every chunk the same number of samples has an entry where each entry of the track's table begins. -/
theorem stsc_subset (cs : List ChunkInfo) (hn : cs.length < 2 ^ 32 - 1) (h0 : ∀ c, cs[0]? = some c → c.number_of_samples ≠ 0)
    (es : List StscEntry) (he : ∀ k c, cs[k]? = some c → Spec.samplesPerChunk es (k + 1) = c.number_of_samples.toNat) :
    ∀ x ∈ (make_stsc_entries cs).map (fun e => e.first_chunk.toNat), x ∈ es.map (fun e => max 1 e.first_chunk.toNat) := by
  intro x hx
  obtain ⟨e, hm, rfl⟩ := List.mem_map.mp hx
  obtain ⟨j, c, k1, k2, -, k4⟩ := stsc_changes cs (-1) 1 (by show 1 + _ < _; omega) e hm
  have k2 : e.first_chunk.toNat = 1 + j := k2
  have hj := he j c k1
  rw [List.mem_map]
  apply Classical.byContradiction
  intro hno
  have hne : ∀ a ∈ es, max 1 a.first_chunk.toNat ≠ e.first_chunk.toNat := fun a ha hh => hno ⟨a, ha, hh⟩
  cases j with
  | zero =>
    have hf : es.filter (fun a => decide (a.first_chunk.toNat ≤ 0 + 1)) = [] := by
      rw [List.filter_eq_nil_iff]
      intro a ha
      have := hne a ha
      rw [decide_eq_true_eq]
      omega
    unfold Spec.samplesPerChunk at hj
    rw [hf] at hj
    refine h0 c k1 (BitVec.eq_of_toNat_eq ?_)
    exact hj.symm
  | succ i =>
    have hi : i < cs.length := by
      have := (List.getElem?_eq_some_iff.mp k1).1
      omega
    have hb := he i _ (List.getElem?_eq_getElem hi)
    refine k4 i _ rfl (List.getElem?_eq_getElem hi) (BitVec.eq_of_toNat_eq ?_)
    rw [← hb, ← hj]
    unfold Spec.samplesPerChunk
    have hf : es.filter (fun a => decide (a.first_chunk.toNat ≤ i + 1 + 1)) = es.filter (fun a => decide (a.first_chunk.toNat ≤ i + 1)) := by
      apply List.filter_congr
      intro a ha
      have := hne a ha
      rw [decide_eq_decide]
      omega
    rw [hf]


/-- **C95** The `stsc` box of a track is as short as possible: every table that gives every chunk the same number of samples has at
least as many entries. -/
theorem C95_stsc (t : Track) (path : List BoxType) (hn : t.chunk_infos.length < 2 ^ 32 - 1)
    (h0 : ∀ c, t.chunk_infos[0]? = some c → c.number_of_samples ≠ 0) :
    ∃ b : Stsc, (t.stsc path).box.data = .stsc b ∧
      (∀ k c, t.chunk_infos[k]? = some c → Spec.samplesPerChunk b.entries (k + 1) = c.number_of_samples.toNat) ∧
      ∀ es, (∀ k c, t.chunk_infos[k]? = some c → Spec.samplesPerChunk es (k + 1) = c.number_of_samples.toNat) → b.entries.length ≤ es.length := by
  obtain ⟨h1, -, h3, -, -⟩ := C33_entries t.chunk_infos hn
  refine ⟨_, rfl, h1, fun es he => ?_⟩
  show (make_stsc_entries t.chunk_infos).length ≤ _
  rw [← List.length_map (as := make_stsc_entries t.chunk_infos) (fun e => e.first_chunk.toNat),
    ← List.length_map (as := es) (fun e => max 1 e.first_chunk.toNat)]
  exact length_le_of_subset _ _ (List.pairwise_map.mpr h3) (stsc_subset t.chunk_infos hn h0 es he)

theorem eq_of_subset : ∀ (l m : List Nat), l.Pairwise (· < ·) → m.Pairwise (· < ·) → (∀ x ∈ l, x ∈ m) → m.length ≤ l.length → l = m := by
  intro l
  induction l with
  | nil => intro m _ _ _ h; exact (List.length_eq_zero_iff.1 (Nat.le_zero.1 h)).symm
  | cons a l ih =>
    intro m hl hm hs hlen
    cases m with
    | nil => exact absurd (hs a List.mem_cons_self) (by simp)
    | cons b m =>
      have ha : ∀ x ∈ l, a < x := fun x hx => List.rel_of_pairwise_cons hl hx
      have hb : ∀ x ∈ m, b < x := fun x hx => List.rel_of_pairwise_cons hm hx
      have hab : a = b := by
        rcases List.mem_cons.1 (hs a List.mem_cons_self) with h | h
        · exact h
        · exfalso
          have hba := hb a h
          have hsub : ∀ x ∈ a :: l, x ∈ m := by
            intro x hx
            rcases List.mem_cons.1 (hs x hx) with h' | h'
            · rcases List.mem_cons.1 hx with hx | hx
              · omega
              · have := ha x hx; omega
            · exact h'
          have := length_le_of_subset _ m hl hsub
          rw [List.length_cons] at this hlen
          rw [List.length_cons] at hlen
          omega
      subst hab
      rw [ih m (List.Pairwise.of_cons hl) (List.Pairwise.of_cons hm) (fun x hx => ?_) (by simpa using hlen)]
      rcases List.mem_cons.1 (hs x (List.mem_cons_of_mem _ hx)) with h | h
      · have := ha x hx; omega
      · exact h

/-- In a table in ascending order an entry is what counts for the chunk it begins with. -/
theorem samplesPerChunk_first : ∀ (es : List StscEntry), es.Pairwise (fun a b => a.first_chunk.toNat < b.first_chunk.toNat) →
    ∀ e ∈ es, Spec.samplesPerChunk es e.first_chunk.toNat = e.samples_per_chunk.toNat := by
  intro es hp e he
  have key : (es.filter fun x => decide (x.first_chunk.toNat ≤ e.first_chunk.toNat)).getLast? = some e := by
    induction es with
    | nil => cases he
    | cons x es ih =>
      rcases List.mem_cons.1 he with rfl | he
      · rw [List.filter_cons_of_pos (by simp), List.filter_eq_nil_iff.2]
        · rfl
        · intro a ha
          have := List.rel_of_pairwise_cons hp ha
          rw [decide_eq_true_eq]
          omega
      · have := List.rel_of_pairwise_cons hp he
        rw [List.filter_cons_of_pos (by rw [decide_eq_true_eq]; omega), List.getLast?_cons, ih (List.Pairwise.of_cons hp) he]
        rfl
  unfold Spec.samplesPerChunk
  rw [key]

/-- **C95** … and it is the only one that short that has its entries in ascending order, as 8.7.4 asks for, and refers to the only sample
entry there is. -/
theorem C95_stsc_only (t : Track) (path : List BoxType) (hn : t.chunk_infos.length < 2 ^ 32 - 1)
    (h0 : ∀ c, t.chunk_infos[0]? = some c → c.number_of_samples ≠ 0) :
    ∃ b : Stsc, (t.stsc path).box.data = .stsc b ∧
      ∀ es, (∀ k c, t.chunk_infos[k]? = some c → Spec.samplesPerChunk es (k + 1) = c.number_of_samples.toNat) →
        es.Pairwise (fun a b => a.first_chunk.toNat < b.first_chunk.toNat) →
        (∀ e ∈ es, 0 < e.first_chunk.toNat ∧ e.sample_description_index = 1) →
        es ≠ b.entries → b.entries.length < es.length := by
  obtain ⟨h1, -, h3, h4, -⟩ := C33_entries t.chunk_infos hn
  refine ⟨_, rfl, fun es he hp hx hne => ?_⟩
  show (make_stsc_entries t.chunk_infos).length < _
  have hsub := stsc_subset t.chunk_infos hn h0 es he
  have hmax : es.map (fun e => max 1 e.first_chunk.toNat) = es.map (fun e => e.first_chunk.toNat) := by
    apply List.map_congr_left
    intro e hm
    have := (hx e hm).1
    omega
  rw [hmax] at hsub
  apply Nat.lt_of_not_le
  intro hle
  have heq := eq_of_subset _ _ (List.pairwise_map.mpr h3) (List.pairwise_map.mpr hp) hsub (by simpa using hle)
  apply hne
  show es = make_stsc_entries t.chunk_infos
  have hlen := congrArg List.length heq
  rw [List.length_map, List.length_map] at hlen
  apply List.ext_getElem hlen.symm
  intro i hi hi'
  have hfirst : (make_stsc_entries t.chunk_infos)[i].first_chunk.toNat = es[i].first_chunk.toNat := by
    have := congrArg (fun l => l[i]?) heq
    simpa [hi, hi'] using this
  obtain ⟨j, c, k1, k2, -, -⟩ := stsc_changes t.chunk_infos (-1) 1 (by show 1 + _ < _; omega) _ (List.getElem_mem hi')
  have k2 : (make_stsc_entries t.chunk_infos)[i].first_chunk.toNat = 1 + j := k2
  have a1 := samplesPerChunk_first _ h3 _ (List.getElem_mem hi')
  have a2 := samplesPerChunk_first _ hp _ (List.getElem_mem hi)
  rw [k2, Nat.add_comm, h1 j c k1] at a1
  rw [← hfirst, k2, Nat.add_comm, he j c k1] at a2
  have b1 := h4 _ (List.getElem_mem hi')
  have b2 := (hx _ (List.getElem_mem hi)).2
  have c1 : es[i].first_chunk = (make_stsc_entries t.chunk_infos)[i].first_chunk := BitVec.eq_of_toNat_eq hfirst.symm
  have c2 : es[i].samples_per_chunk = (make_stsc_entries t.chunk_infos)[i].samples_per_chunk := BitVec.eq_of_toNat_eq (a2.symm.trans a1)
  generalize es[i] = x at *
  generalize (make_stsc_entries t.chunk_infos)[i] = y at *
  cases x; cases y
  simp only at b1 b2 c1 c2
  rw [b1, b2, c1, c2]

/-! ### Concrete tables -/

/-- Six durations, three entries; the table with an entry for every sample stands for the same, and so does one with an empty entry. -/
example : make_stts_entries [3, 3, 5, 5, 5, 3] = [⟨2, 3⟩, ⟨3, 5⟩, ⟨1, 3⟩] ∧
    Spec.sttsDurations [⟨1, 3⟩, ⟨1, 3⟩, ⟨1, 5⟩, ⟨1, 5⟩, ⟨1, 5⟩, ⟨1, 3⟩] = [3, 3, 5, 5, 5, 3] ∧
    Spec.sttsDurations [⟨2, 3⟩, ⟨0, 4⟩, ⟨3, 5⟩, ⟨1, 3⟩] = [3, 3, 5, 5, 5, 3] := by decide +kernel

/-- Four chunks, two entries; a table with an entry for every chunk gives the same numbers. -/
example : make_stsc_entries [⟨0, 2, true⟩, ⟨9, 2, true⟩, ⟨12, 1, true⟩, ⟨20, 1, true⟩] = [⟨1, 2, 1⟩, ⟨3, 1, 1⟩] ∧
    (List.range 4).map (fun k => Spec.samplesPerChunk [⟨1, 2, 1⟩, ⟨2, 2, 1⟩, ⟨3, 1, 1⟩, ⟨4, 1, 1⟩] (k + 1)) = [2, 2, 1, 1] ∧
    (List.range 4).map (fun k => Spec.samplesPerChunk [⟨1, 2, 1⟩, ⟨3, 1, 1⟩] (k + 1)) = [2, 2, 1, 1] := by decide +kernel

/-- That longer table meets the conditions of `C95_stsc_only`: it is another one, in ascending order. -/
example : ∃ b : Stsc, make_stsc_entries [⟨0, 2, true⟩, ⟨9, 2, true⟩, ⟨12, 1, true⟩, ⟨20, 1, true⟩] = b.entries ∧
    ([⟨1, 2, 1⟩, ⟨2, 2, 1⟩, ⟨3, 1, 1⟩, ⟨4, 1, 1⟩] : List StscEntry) ≠ b.entries ∧
    ([⟨1, 2, 1⟩, ⟨2, 2, 1⟩, ⟨3, 1, 1⟩, ⟨4, 1, 1⟩] : List StscEntry).Pairwise (fun a b => a.first_chunk.toNat < b.first_chunk.toNat) ∧
    ∀ e ∈ ([⟨1, 2, 1⟩, ⟨2, 2, 1⟩, ⟨3, 1, 1⟩, ⟨4, 1, 1⟩] : List StscEntry), 0 < e.first_chunk.toNat ∧ e.sample_description_index = 1 :=
  ⟨⟨⟨0, 0, 0, 0⟩, make_stsc_entries [⟨0, 2, true⟩, ⟨9, 2, true⟩, ⟨12, 1, true⟩, ⟨20, 1, true⟩]⟩, rfl, by decide +kernel, by decide +kernel,
    by decide +kernel⟩

end Mp4
