import Verif.Lemmas.Inversion
import Verif.Model.Box

/-! # Bits reported against bits consumed, for arbitrary input -/

namespace Mp4
open R
variable {α β : Type}

/-- Started with the bits `s` of a stream with content `d`, and `n` bits already counted: if `p` ends normally it
consumed a prefix of `s` and reports `n` plus the length of that prefix. -/
def AccAt (d : List Byte) (s : List Bool) (n : Nat) (p : R (Nat × α)) : Prop :=
  ∀ m a s', p.run d s = .ok ((m, a), s') → ∃ c, s = c ++ s' ∧ m = n + c.length

/-- `p` always reports exactly what it consumed. -/
def Exact (p : R (Nat × α)) : Prop := ∀ d s, AccAt d s 0 p

/-- the same with `n` bits counted before -/
def ExactFrom (n : Nat) (p : R (Nat × α)) : Prop := ∀ d s, AccAt d s n p

theorem ExactFrom.zero {p : R (Nat × α)} (h : ExactFrom 0 p) : Exact p := h

theorem ExactFrom.ret {n m : Nat} {a : α} (h : m = n) : ExactFrom n (.ret (m, a)) := by
  intro d s m' a' s' hr
  cases hr
  exact ⟨[], by simp, by simp [h]⟩

theorem ExactFrom.throw {n : Nat} {e : Err} : ExactFrom (α := α) n (.throw e) := by
  intro d s m a s' hr
  cases hr

theorem ExactFrom.bind {n : Nat} {p : R (Nat × α)} {g : Nat × α → R (Nat × β)} (hp : Exact p)
    (hg : ∀ m a, ExactFrom (n + m) (g (m, a))) : ExactFrom n (p.bind g) := by
  intro d s m b s' hr
  rw [run_bind] at hr
  cases h : p.run d s with
  | error e => rw [h] at hr; cases hr
  | ok x =>
    obtain ⟨⟨k, a⟩, s1⟩ := x
    rw [h] at hr
    obtain ⟨c1, e1, f1⟩ := hp d s k a s1 h
    obtain ⟨c2, e2, f2⟩ := hg k a d s1 m b s' hr
    refine ⟨c1 ++ c2, by rw [e1, e2, List.append_assoc], ?_⟩
    simp at f1 ⊢
    omega

theorem ExactFrom.bindEnd {n : Nat} {g : Nat → R (Nat × β)} (hg : ∀ k, ExactFrom n (g k)) :
    ExactFrom n (offsetToEnd.bind g) := fun d s m a s' hr => hg _ d s m a s' hr

theorem ExactFrom.ite {n : Nat} {c : Prop} [Decidable c] {p q : R (Nat × α)} (hp : ExactFrom n p) (hq : ExactFrom n q) :
    ExactFrom n (if c then p else q) := by
  split
  · exact hp
  · exact hq

theorem run_readBitList_ok (n : Nat) (d : List Byte) (s : List Bool) (l s' : List Bool)
    (h : (readBitList n).run d s = .ok (l, s')) : s = l ++ s' ∧ l.length = n := by
  induction n generalizing s l s' with
  | zero => cases h; exact ⟨rfl, rfl⟩
  | succ n ih =>
    cases s with
    | nil => cases h
    | cons b s =>
      simp only [readBitList, run] at h
      rw [run_bind] at h
      cases hr : (readBitList n).run d s with
      | error e => rw [hr] at h; cases h
      | ok x =>
        rw [hr] at h
        cases h
        obtain ⟨e, f⟩ := ih s x.1 x.2 hr
        exact ⟨by simp [← e], by simp [f]⟩

theorem run_readBits_ok (n : Nat) (d : List Byte) (s : List Bool) (v : List Byte) (s' : List Bool)
    (h : (readBits n).run d s = .ok (v, s')) : ∃ l, s = l ++ s' ∧ l.length = n ∧ v = packBits l := by
  rw [readBits, run_bind] at h
  cases hr : (readBitList n).run d s with
  | error e => rw [hr] at h; cases h
  | ok x =>
    rw [hr] at h
    cases h
    obtain ⟨e, f⟩ := run_readBitList_ok n d s x.1 _ hr
    exact ⟨x.1, e, f, rfl⟩

/-- Reading bits and reporting their number. -/
theorem ExactFrom.bindBits {n k : Nat} {g : List Byte → R (Nat × β)} (hg : ∀ v, ExactFrom (n + k) (g v)) :
    ExactFrom n ((readBits k).bind g) := by
  intro d s m b s' hr
  rw [run_bind] at hr
  cases h : (readBits k).run d s with
  | error e => rw [h] at hr; cases hr
  | ok x =>
    rw [h] at hr
    obtain ⟨l, e1, f1, -⟩ := run_readBits_ok k d s x.1 x.2 h
    obtain ⟨c2, e2, f2⟩ := hg x.1 d x.2 m b s' hr
    exact ⟨l ++ c2, by rw [e1, e2, List.append_assoc], by simp; omega⟩

theorem exact_read_uint (w n : Nat) : Exact (read_uint w n) := by
  unfold read_uint
  split
  · exact ExactFrom.throw
  · exact ExactFrom.bindBits (n := 0) fun v => ExactFrom.ret (by simp)

theorem exact_read_int (w n : Nat) : Exact (read_int w n) := by
  unfold read_int
  split
  · exact ExactFrom.throw
  · refine ExactFrom.bindBits (n := 0) fun v => ?_
    dsimp only
    split
    · exact ExactFrom.ret (by simp)
    · split <;> exact ExactFrom.ret (by simp)

theorem exact_read_bool : Exact read_bool := ExactFrom.bindBits (n := 0) fun _ => ExactFrom.ret (by simp)

theorem exact_readN {p : R (Nat × α)} (hp : Exact p) (n : Nat) : Exact (readN p n) := by
  induction n with
  | zero => exact ExactFrom.ret rfl
  | succ n ih =>
    rw [readN]
    refine ExactFrom.bind (n := 0) hp fun m a => ?_
    refine ExactFrom.bind ih fun m' a' => ?_
    exact ExactFrom.ret (by simp)

theorem exact_opt {p : R (Nat × α)} (hp : Exact p) (c : Bool) (old : α) : Exact (R.opt c p old) := by
  cases c
  · exact ExactFrom.ret rfl
  · exact hp

theorem exact_read_vector_uint (w n : Nat) : Exact (read_vector_uint w n) := exact_readN (exact_read_uint w w) n

theorem exact_read_arr (w n : Nat) : Exact (read_arr w n) :=
  ExactFrom.bind (n := 0) (exact_readN (exact_read_uint w w) n) fun _ _ => ExactFrom.ret (by simp)

theorem exact_read_arr_int (w n : Nat) : Exact (read_arr_int w n) :=
  ExactFrom.bind (n := 0) (exact_readN (exact_read_int w w) n) fun _ _ => ExactFrom.ret (by simp)

theorem exact_read_array4 : Exact read_array_uint8_4 := by
  rw [read_array_uint8_4]
  intro d s m a s' hr
  have hlen : Ensures (read_uint 8 8) fun x => x.1 = 8 := fun d s a s' h =>
    (ensures_read_uint 8 8 (by decide) d s a s' h).2
  have key : Exact (do
      let (r0, a) ← read_uint 8
      let (r1, b) ← read_uint 8
      let (r2, c) ← read_uint 8
      let (r3, e) ← read_uint 8
      pure (r0 + r1 + r2 + r3, (⟨a, b, c, e⟩ : Arr4)) : R (Nat × Arr4)) := by
    refine ExactFrom.bind (n := 0) (exact_read_uint _ _) fun _ _ => ?_
    refine ExactFrom.bind (exact_read_uint _ _) fun _ _ => ?_
    refine ExactFrom.bind (exact_read_uint _ _) fun _ _ => ?_
    refine ExactFrom.bind (exact_read_uint _ _) fun _ _ => ?_
    exact ExactFrom.ret (by simp)
  refine key d s m a s' ?_
  rw [← hr]
  simp only [bind_eq, pure_eq]
  rw [run_bind, run_bind]
  cases h0 : (read_uint 8 8).run d s with
  | error e => rfl
  | ok x0 =>
    have l0 := hlen d s x0.1 x0.2 h0
    dsimp only
    rw [run_bind, run_bind]
    cases h1 : (read_uint 8 8).run d x0.2 with
    | error e => rfl
    | ok x1 =>
      have l1 := hlen d _ x1.1 x1.2 h1
      dsimp only
      rw [run_bind, run_bind]
      cases h2 : (read_uint 8 8).run d x1.2 with
      | error e => rfl
      | ok x2 =>
        have l2 := hlen d _ x2.1 x2.2 h2
        dsimp only
        rw [run_bind, run_bind]
        cases h3 : (read_uint 8 8).run d x2.2 with
        | error e => rfl
        | ok x3 =>
          have l3 := hlen d _ x3.1 x3.2 h3
          dsimp only
          rw [l0, l1, l2, l3]

theorem exactFrom_readUvarintGo (w fuel : Nat) (val : BitVec w) (rb : Nat) :
    ExactFrom rb (readUvarintGo w fuel val rb) := by
  induction fuel generalizing val rb with
  | zero => exact ExactFrom.throw
  | succ fuel ih =>
    rw [readUvarintGo]
    refine ExactFrom.bindBits fun v => ?_
    dsimp only
    split
    · exact ExactFrom.ret rfl
    · exact ih _ _

theorem exact_read_uvarint (w : Nat) : Exact (read_uvarint w) :=
  ExactFrom.bindEnd (n := 0) fun _ => exactFrom_readUvarintGo w _ _ _

theorem exact_readStringGo (k : Nat) : Exact (readStringGo k) := by
  induction k with
  | zero => exact ExactFrom.ret rfl
  | succ k ih =>
    rw [readStringGo]
    refine ExactFrom.bindBits (n := 0) fun v => ?_
    dsimp only
    split
    · exact ExactFrom.ret rfl
    · exact ExactFrom.bind ih fun m a => ExactFrom.ret (by simp)

theorem exact_read_string (m : Nat) : Exact (read_string m) := exact_readStringGo _

theorem exact_readBytes8 (k : Nat) : Exact (readBytes8 k) := by
  induction k with
  | zero => exact ExactFrom.ret rfl
  | succ k ih =>
    rw [readBytes8]
    refine ExactFrom.bindBits (n := 0) fun v => ?_
    exact ExactFrom.bind ih fun m a => ExactFrom.ret (by simp)

theorem exact_fullBox : Exact FullBox.readVersionAndFlag := by
  rw [FullBox.readVersionAndFlag]
  simp only [bind_eq, pure_eq]
  refine ExactFrom.bind (n := 0) (exact_read_uint _ _) fun _ _ => ?_
  refine ExactFrom.bind (exact_read_uint _ _) fun _ _ => ?_
  refine ExactFrom.bind (exact_read_uint _ _) fun _ _ => ?_
  refine ExactFrom.bind (exact_read_uint _ _) fun _ _ => ?_
  exact ExactFrom.ret (by simp)

end Mp4
