import Verif.BitIO.BoxTools

/-! # What holds after a read of arbitrary (also malformed) input -/

namespace Mp4.R
variable {α β : Type}

/-- Whenever `p` ends normally, its result satisfies `Q`. -/
def Ensures (p : R α) (Q : α → Prop) : Prop := ∀ d s a s', p.run d s = .ok (a, s') → Q a

theorem Ensures.ret {a : α} {Q : α → Prop} (h : Q a) : Ensures (.ret a) Q := by
  intro d s a' s' hr
  cases hr
  exact h

theorem Ensures.throw {e : Err} {Q : α → Prop} : Ensures (.throw e) Q := by
  intro d s a' s' hr
  cases hr

theorem Ensures.bind {p : R α} {g : α → R β} {P : α → Prop} {Q : β → Prop} (hp : Ensures p P)
    (hg : ∀ a, P a → Ensures (g a) Q) : Ensures (p.bind g) Q := by
  intro d s b s' hr
  rw [run_bind] at hr
  cases h : p.run d s with
  | error e => rw [h] at hr; cases hr
  | ok x => rw [h] at hr; exact hg x.1 (hp d s x.1 x.2 h) d x.2 b s' hr

theorem Ensures.any (p : R α) : Ensures p fun _ => True := fun _ _ _ _ _ => trivial

theorem Ensures.toEnd {k : Nat → R α} {Q : α → Prop} (h : ∀ n, Ensures (k n) Q) : Ensures (.toEnd k) Q :=
  fun d s a s' hr => h _ d s a s' hr

theorem ensures_readN (p : R (Nat × α)) (n : Nat) : Ensures (readN p n) fun x => x.2.length = n := by
  induction n with
  | zero => exact Ensures.ret rfl
  | succ n ih =>
    rw [readN]
    refine Ensures.bind (Ensures.any p) (fun a _ => ?_)
    refine Ensures.bind ih (fun b hb => ?_)
    exact Ensures.ret (by simp [hb])

theorem ensures_readBits (n : Nat) : Ensures (readBitList n) fun l => l.length = n := by
  induction n with
  | zero => exact Ensures.ret rfl
  | succ n ih =>
    rw [readBitList]
    intro d s a s' hr
    cases s with
    | nil => cases hr
    | cons b s =>
      have h : Ensures ((readBitList n).bind fun bs => .ret (b :: bs)) fun l => l.length = n + 1 :=
        Ensures.bind ih (fun l hl => Ensures.ret (by simp [hl]))
      exact h d s a s' hr

theorem ensures_read_uint (w n : Nat) (h64 : n ≤ 64) :
    Ensures (read_uint w n) fun x => x.2.toNat < 2 ^ n ∧ x.1 = n := by
  unfold read_uint
  split
  · exact Ensures.throw
  · next h0 =>
    refine Ensures.bind (P := fun data => ∃ l : List Bool, l.length = n ∧ data = packBits l) ?_ ?_
    · exact Ensures.bind (ensures_readBits n) (fun l hl => Ensures.ret ⟨l, hl, rfl⟩)
    · rintro data ⟨l, hl, rfl⟩
      refine Ensures.ret ⟨?_, rfl⟩
      have := read_uint_raw w n (fun x => .ret x) [] l [] (by omega) hl h64
      rw [read_uint, if_neg h0] at this
      simp only [bind_eq, bind_assoc', pure_eq, ret_bind] at this
      rw [run_readBits _ n [] l [] hl] at this
      simp only [run_ret, Except.ok.injEq, Prod.mk.injEq, true_and, and_true] at this
      rw [this]
      have hlt := ofBits_lt l
      rw [hl] at hlt
      rw [BitVec.toNat_ofNat]
      exact Nat.lt_of_le_of_lt (Nat.mod_le _ _) hlt

end Mp4.R
