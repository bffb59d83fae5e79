import Verif.Lemmas.NeededMore

/-! # How many bytes the alternative startup entries of `sgpd` need -/

namespace Mp4
open R
variable {α β : Type}

/-- `p`, started at bit `o` of `S`, needs `S` to have `N` bits; it then stops at bit `N` or throws `x`. -/
def EndsAt (x : Err) (S : List Bool) (o : Nat) (p : R (Nat × α)) (N : Nat) (good : Bool) : Prop :=
  ∀ d, (N ≤ S.length → good = true → ∃ n a, p.run d (S.drop o) = .ok ((n, a), S.drop N)) ∧
    (N ≤ S.length → good = false → p.run d (S.drop o) = .error x) ∧
    (S.length < N → p.run d (S.drop o) = .error .eof)

theorem EndsAt.congr {x : Err} {S : List Bool} {o N M : Nat} {p : R (Nat × α)} {g : Bool} (hp : EndsAt x S o p N g) (h : N = M) :
    EndsAt x S o p M g := h ▸ hp

theorem EndsAt.of_takes {x : Err} {S : List Bool} {o N : Nat} {p : R (Nat × α)} (hp : TakesAt S o p N) : EndsAt x S o p N true :=
  fun d => ⟨fun h _ => (hp d).1 h, fun _ h => (by cases h), (hp d).2⟩

theorem EndsAt.takes {x : Err} {S : List Bool} {o N : Nat} {p : R (Nat × α)} (hp : EndsAt x S o p N true) : TakesAt S o p N :=
  fun d => ⟨fun h => (hp d).1 h rfl, (hp d).2.2⟩

theorem EndsAt.throw {x : Err} {S : List Bool} {o N : Nat} (h : N ≤ S.length) :
    EndsAt x S o (R.throw x : R (Nat × α)) N false :=
  fun _ => ⟨fun _ h => (by cases h), fun _ _ => rfl, fun h' => by omega⟩

theorem EndsAt.bind {x : Err} {S : List Bool} {o M N : Nat} {p : R (Nat × α)} {g : Nat × α → R (Nat × β)} {good : Bool}
    (hp : TakesAt S o p M) (hMN : M ≤ N)
    (hg : M ≤ S.length → ∀ d n a, p.run d (S.drop o) = .ok ((n, a), S.drop M) → EndsAt x S M (g (n, a)) N good) :
    EndsAt x S o (p.bind g) N good := by
  intro d
  rw [run_bind]
  by_cases hM : M ≤ S.length
  · obtain ⟨n, a, hr⟩ := (hp d).1 hM
    rw [hr]
    exact hg hM d n a hr d
  · rw [(hp d).2 (by omega)]
    exact ⟨fun h => by omega, fun h => by omega, fun _ => rfl⟩

theorem EndsAt.fail {x : Err} {S : List Bool} {o N : Nat} {p : R (Nat × α)} (g : Nat × α → R (Nat × β))
    (hp : EndsAt x S o p N false) : EndsAt x S o (p.bind g) N false := by
  intro d
  rw [run_bind]
  refine ⟨fun _ h => (by cases h), fun h _ => ?_, fun h => ?_⟩
  · rw [(hp d).2.1 h rfl]
  · rw [(hp d).2.2 h]

/-- The exception of an entry of the wrong length. -/
def startupErr : Err := .exc "AlternativeStartupEntry::readData(): invalid offset of AlternativeStartupEntry"

theorem StartupOpt.takes {S : List Bool} (o : Nat) : TakesAt S o StartupOpt.readData (o + 32) := by
  rw [StartupOpt.readData]; takes_fields; exact TakesAt.ret (by omega) (by omega)

/-- An entry at byte `o`. -/
theorem StartupEntry.ends (d : List Byte) (o : Nat) (ho : o ≤ d.length) (length : BitVec 32) (c : Bool) :
    let b := if c then o + 4 else o
    let l := (if c then Spec.numAt d o 4 else length.toNat) % 2 ^ 29
    let offsets := 4 + 4 * Spec.numAt d b 2
    EndsAt startupErr (bytesBits d) (8 * o) (StartupEntry.readData length c)
      (8 * if l < offsets ∨ l % 4 ≠ 0 then b + offsets else b + l) (!decide (l < offsets ∨ l % 4 ≠ 0)) := by
  intro b l offsets
  have hlen := bytesBits_length d
  have hge : b + offsets ≤ if l < offsets ∨ l % 4 ≠ 0 then b + offsets else b + l := by
    split
    · exact Nat.le_refl _
    · omega
  have hb : 8 * o + 8 * (if c then 4 else 0) = 8 * b := by
    show _ = 8 * (if c then o + 4 else o)
    split <;> omega
  rw [StartupEntry.readData]
  simp only [bind_eq, pure_eq]
  refine EndsAt.bind ((takes_opt (k := 4) _ _ (takes_uint _ _ (by decide)) (by omega)).congr hb) (by omega) fun hB e r0 dl h0 => ?_
  have hr0 : r0 = if c then 32 else 0 := by
    have := exact_count (exact_opt (exact_read_uint _ _) c 0) h0 hB (by omega)
    cases c
    · simp only [Bool.false_eq_true, if_false] at hb ⊢; omega
    · simp only [if_true] at hb ⊢; omega
  have hl : (if c then dl else length).toNat % 2 ^ 29 = l := by
    show _ = (if c then Spec.numAt d o 4 else length.toNat) % 2 ^ 29
    cases c
    · rfl
    · have h0 := uint_val (S := bytesBits d) (o := 8 * o) (w := 32) (k := 32) (s' := (bytesBits d).drop (8 * b)) (n := r0) (a := dl)
        (d := e) h0
      simp only [if_true]
      rw [h0, ← fieldAt_bytes]
  refine EndsAt.bind (takes_uint _ _ (by decide)) (by omega) fun _ _ r1 rc h1 => ?_
  refine EndsAt.bind (takes_uint _ _ (by decide)) (by omega) fun h _ r2 _ h2 => ?_
  have hrc : rc.toNat = Spec.numAt d b 2 := by rw [uint_val h1, ← fieldAt_bytes]
  have hoff : 8 * b + 16 + 16 + rc.toNat * 32 = 8 * (b + offsets) := by
    show _ = 8 * (b + (4 + 4 * Spec.numAt d b 2))
    rw [hrc]; omega
  refine EndsAt.bind ((takes_vector 32 _ (by decide) h).congr hoff) (by omega) fun hO _ r3 _ h3 => ?_
  have hr1 : r1 = 16 := by have := exact_count (exact_read_uint _ _) h1 (by omega) (by omega); omega
  have hr2 : r2 = 16 := by have := exact_count (exact_read_uint _ _) h2 (by omega) (by omega); omega
  have hr3 : r3 = 32 * rc.toNat := by have := exact_count (exact_read_vector_uint _ _) h3 (by omega) (by omega); omega
  have hof2 : offsets = 4 + 4 * rc.toNat := by rw [hrc]
  generalize hoffset : (if c = true then ((dl * 8).toNat - (r0 + r1 + r2 + r3 - 32 : Nat) : Int)
    else ((length * 8).toNat - (r0 + r1 + r2 + r3 : Nat) : Int)) = offset
  have hval : offset = 8 * (l : Int) - 8 * (offsets : Int) := by
    rw [← hoffset, ← hl, hof2, hr1, hr2, hr3, hr0]
    have hm : ∀ v : BitVec 32, (v * 8).toNat = 8 * (v.toNat % 2 ^ 29) := by
      intro v
      rw [BitVec.toNat_mul]
      show v.toNat * 8 % 2 ^ 32 = _
      omega
    cases c
    · simp only [Bool.false_eq_true, if_false, hm]
      omega
    · simp only [if_true, hm]
      omega
  dsimp only
  by_cases hc : l < offsets ∨ l % 4 ≠ 0
  · rw [if_pos (by omega), if_pos hc, decide_eq_true hc]
    exact EndsAt.throw hO
  · rw [if_neg (by omega), if_neg hc, decide_eq_false hc]
    refine EndsAt.of_takes ?_
    refine TakesAt.bind ((takes_readN' (k := 32) (fun o _ => StartupOpt.takes o) _ _ hO).congr (M := 8 * (b + l)) (by omega))
      (Nat.le_refl _) fun h _ _ _ _ => TakesAt.ret rfl h

theorem startup_ge (d : List Byte) (len : Option Nat) (n : Nat) : ∀ o, o ≤ (Spec.startupEnd d len n o).1 := by
  induction n with
  | zero => exact fun o => Nat.le_refl _
  | succ n ih =>
    intro o
    rw [Spec.startupEnd]
    have hb : o ≤ if len.isNone then o + 4 else o := by split <;> omega
    generalize (if len.isNone then o + 4 else o) = b at hb ⊢
    split
    · exact Nat.le_trans hb (Nat.le_add_right _ _)
    · exact Nat.le_trans (Nat.le_trans hb (Nat.le_add_right _ _)) (ih _)

/-- A list of entries at byte `o`. -/
theorem startup_ends (d : List Byte) (length : BitVec 32) (c : Bool) (n : Nat) : ∀ o, o ≤ d.length →
    EndsAt startupErr (bytesBits d) (8 * o) (readN (StartupEntry.readData length c) n)
      (8 * (Spec.startupEnd d (if c then none else some length.toNat) n o).1)
      (Spec.startupEnd d (if c then none else some length.toNat) n o).2 := by
  have hlen := bytesBits_length d
  induction n with
  | zero => exact fun o ho => EndsAt.of_takes (TakesAt.ret rfl (by rw [hlen]; dsimp only [Spec.startupEnd]; omega))
  | succ n ih =>
    intro o ho
    rw [readN]
    simp only [bind_eq, pure_eq]
    have he := StartupEntry.ends d o ho length c
    rw [Spec.startupEnd]
    have e1 : (if (if c = true then none else some length.toNat : Option Nat).isNone then o + 4 else o)
        = if c then o + 4 else o := by cases c <;> rfl
    have e2 : (if c = true then none else some length.toNat : Option Nat).getD (Spec.numAt d o 4)
        = if c then Spec.numAt d o 4 else length.toNat := by cases c <;> rfl
    dsimp only at he ⊢
    rw [e1, e2]
    generalize (if c = true then o + 4 else o) = b at he ⊢
    generalize (if c = true then Spec.numAt d o 4 else length.toNat) % 2 ^ 29 = l at he ⊢
    by_cases hc : l < 4 + 4 * Spec.numAt d b 2 ∨ l % 4 ≠ 0
    · rw [if_pos hc, decide_eq_true hc] at he
      rw [if_pos hc]
      exact EndsAt.fail _ he
    · rw [if_neg hc, decide_eq_false hc] at he
      rw [if_neg hc]
      have := startup_ge d (if c = true then none else some length.toNat) n (b + l)
      refine EndsAt.bind he.takes (by omega) fun h _ _ _ _ => ?_
      have := ih (b + l) (by omega)
      generalize Spec.startupEnd d (if c = true then none else some length.toNat) n (b + l) = z at this ⊢
      obtain ⟨N, good⟩ := z
      cases good
      · exact EndsAt.fail _ this
      · exact EndsAt.of_takes (TakesAt.map _ this.takes)

theorem Sgpd.startup (old : Sgpd) (d : List Byte) (ht : Spec.numAt d 4 4 = 0x616c7374) :
    EndsAt startupErr (bytesBits d) 0 (Sgpd.readData old) (8 * (Spec.startup d old.default_length.toNat).1)
      (Spec.startup d old.default_length.toNat).2 := by
  have hlen := bytesBits_length d
  have hge := startup_ge d (if Spec.version d = 1 then (if Spec.numAt d 8 4 = 0 then none else some (Spec.numAt d 8 4))
    else some old.default_length.toNat) (Spec.numAt d 12 4) 16
  rw [← Spec.startup] at hge
  rw [Sgpd.readData]
  simp only [bind_eq, pure_eq]
  refine EndsAt.bind takes_fullBox (by omega) fun _ _ _ fb hr => ?_
  refine EndsAt.bind takes_code4 (by omega) fun _ _ _ g hg => ?_
  refine EndsAt.bind (takes_uint _ _ (by decide)) (by omega) fun h _ _ v hv => ?_
  have hg := code4_val hg
  have hv := uint_val hv
  simp only [Nat.zero_add, Nat.reduceAdd] at *
  have h1 := (fullBox_val hr).1
  rw [version_bytes d] at h1
  have e1 : fb.version = 1 ↔ Spec.version d = 1 := by
    rw [← h1]; exact ⟨fun h => by rw [h]; rfl, fun h => BitVec.eq_of_toNat_eq h⟩
  have h8 := fieldAt_bytes d 8 4
  simp only [Nat.reduceMul] at h8
  have e2 : v = 0 ↔ Spec.numAt d 8 4 = 0 := by
    rw [← h8, ← hv]; exact ⟨fun h => by rw [h]; rfl, fun h => BitVec.eq_of_toNat_eq h⟩
  generalize hb : (if fb.version = 1 then ({ old with toFullBox := fb, grouping_type := g, default_length := v } : Sgpd)
        else { old with toFullBox := fb, grouping_type := g, default_sample_description_index := v }) = b
  have hlenOpt : (if noDefaultLength fb.version b.default_length then none else some b.default_length.toNat)
      = if Spec.version d = 1 then (if Spec.numAt d 8 4 = 0 then none else some (Spec.numAt d 8 4))
        else some old.default_length.toNat := by
    rw [noDefaultLength]
    by_cases hv1 : fb.version = 1
    · rw [if_pos hv1] at hb
      rw [if_pos (e1.1 hv1), ← hb, hv1]
      by_cases hv2 : v = 0
      · simp [hv2, e2.1 hv2]
      · have hv3 : ¬ v = 0#32 := hv2
        rw [if_neg (fun h => hv2 (e2.2 h)), ← h8, ← hv]
        simp [hv3]
    · have hv2 : ¬ fb.version = 1#8 := hv1
      rw [if_neg hv1] at hb
      rw [if_neg (fun h => hv1 (e1.2 h)), ← hb]
      simp [hv2]
  have h4 := fieldAt_bytes d 4 4
  simp only [Nat.reduceMul] at h4
  rw [← h4] at ht
  simp only [isRoll, isAlst, code4_eq, ← hg, BitVec.reduceToNat, Nat.reduceMul, Nat.reduceAdd, Bool.or_eq_true,
    decide_eq_true_eq, ht]
  rw [if_neg (by decide), if_pos (by decide)]
  refine EndsAt.bind (takes_uint _ _ (by decide)) (by omega) fun h _ _ c hc => ?_
  have hc := uint_val hc
  have h12 := fieldAt_bytes d 12 4
  simp only [Nat.reduceMul] at h12
  rw [h12] at hc
  have key := startup_ends d b.default_length (noDefaultLength fb.version b.default_length) c.toNat 16 (by omega)
  rw [hlenOpt, hc, ← Spec.startup] at key
  dsimp only
  rw [hc]
  generalize Spec.startup d old.default_length.toNat = z at key ⊢
  obtain ⟨N, good⟩ := z
  cases good
  · exact EndsAt.fail _ key
  · exact EndsAt.of_takes (TakesAt.map _ key.takes)

end Mp4
