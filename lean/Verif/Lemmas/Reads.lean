import Verif.Lemmas.Exact
import Verif.Spec.LayoutBox

/-! # The bits a read consumes, for arbitrary input -/

namespace Mp4
open R
variable {α β : Type}

/-- Whenever `p` ends normally with the value `a`, the bits it consumed are `enc a`, and `a` satisfies `P`. -/
def Reads (p : R (Nat × α)) (enc : α → List Bool) (P : α → Prop) : Prop :=
  ∀ d s n a s', p.run d s = .ok ((n, a), s') → s = enc a ++ s' ∧ P a

/-- The same with the bits `pre` consumed before. -/
def ReadsFrom (pre : List Bool) (p : R (Nat × α)) (enc : α → List Bool) (P : α → Prop) : Prop :=
  ∀ d s n a s', p.run d s = .ok ((n, a), s') → pre ++ s = enc a ++ s' ∧ P a

theorem ReadsFrom.start {p : R (Nat × α)} {enc : α → List Bool} {P : α → Prop} (h : ReadsFrom [] p enc P) : Reads p enc P := h

theorem ReadsFrom.ret {pre : List Bool} {n : Nat} {a : α} {enc : α → List Bool} {P : α → Prop} (h : pre = enc a ∧ P a) :
    ReadsFrom pre (.ret (n, a)) enc P := by
  intro d s m a' s' hr
  cases hr
  exact ⟨by rw [h.1], h.2⟩

theorem ReadsFrom.throw {pre : List Bool} {e : Err} {enc : α → List Bool} {P : α → Prop} :
    ReadsFrom pre (.throw e) enc P := by
  intro d s m a' s' hr
  cases hr

theorem ReadsFrom.bind {pre : List Bool} {p : R (Nat × α)} {g : Nat × α → R (Nat × β)} {e : α → List Bool} {Q : α → Prop}
    {enc : β → List Bool} {P : β → Prop} (hp : Reads p e Q)
    (hg : ∀ n a, Q a → ReadsFrom (pre ++ e a) (g (n, a)) enc P) : ReadsFrom pre (p.bind g) enc P := by
  intro d s m b s' hr
  rw [run_bind] at hr
  cases h : p.run d s with
  | error e => rw [h] at hr; cases hr
  | ok x =>
    obtain ⟨⟨k, a⟩, s1⟩ := x
    rw [h] at hr
    obtain ⟨e1, q1⟩ := hp d s k a s1 h
    obtain ⟨e2, q2⟩ := hg k a q1 d s1 m b s' hr
    exact ⟨by rw [e1, ← List.append_assoc, e2], q2⟩

theorem ReadsFrom.bindEnd {pre : List Bool} {g : Nat → R (Nat × β)} {enc : β → List Bool} {P : β → Prop}
    (hg : ∀ k, ReadsFrom pre (g k) enc P) : ReadsFrom pre (offsetToEnd.bind g) enc P :=
  fun d s m a s' hr => hg _ d s m a s' hr

theorem ReadsFrom.ite {pre : List Bool} {c : Prop} [Decidable c] {p q : R (Nat × α)} {enc : α → List Bool} {P : α → Prop}
    (hp : c → ReadsFrom pre p enc P) (hq : ¬ c → ReadsFrom pre q enc P) : ReadsFrom pre (if c then p else q) enc P := by
  split
  · next h => exact hp h
  · next h => exact hq h

theorem Reads.weaken {p : R (Nat × α)} {enc : α → List Bool} {P Q : α → Prop} (h : Reads p enc P) (hq : ∀ a, P a → Q a) :
    Reads p enc Q := fun d s n a s' hr => ⟨(h d s n a s' hr).1, hq a (h d s n a s' hr).2⟩


/-! ### primitives -/

theorem reads_of_raw {w n : Nat} (p : R (Nat × BitVec w)) (enc : BitVec w → List Bool) (P : BitVec w → Prop) (hx : Exact p)
    (hn : ∀ d s a s', p.run d s = .ok (a, s') → a.1 = n)
    (h : ∀ l : List Bool, l.length = n → ∃ v, enc v = l ∧ P v ∧ ∀ d rest, p.run d (l ++ rest) = .ok ((n, v), rest)) :
    Reads p enc P := by
  intro d s m a s' hr
  obtain ⟨c, hc, hm⟩ := hx d s m a s' hr
  have hmn : m = n := hn d s _ _ hr
  obtain ⟨v, hv, hP, hrun⟩ := h c (by omega)
  rw [hc, hrun d s'] at hr
  cases hr
  exact ⟨by rw [hc, hv], hP⟩

theorem run_of_bind_ret {p : R α} {d : List Byte} {s : List Bool} {x : Except Err (α × List Bool)}
    (h : (p.bind .ret).run d s = x) : p.run d s = x := by rwa [bind_ret] at h

theorem reads_ubits (w n : Nat) (hn : n ≤ w) (h64 : w ≤ 64) :
    Reads (read_uint w n) (ubits n) fun v => v.toNat < 2 ^ n := by
  by_cases h0 : n = 0
  · subst h0
    intro d s m a s' hr
    cases hr
  · refine reads_of_raw (n := n) _ _ _ (exact_read_uint w n)
      (fun d s a s' h => (ensures_read_uint w n (by omega) d s a s' h).2) fun l hl => ?_
    have hlt := ofBits_lt l
    rw [hl] at hlt
    have hlt' : ofBits l < 2 ^ w := Nat.lt_of_lt_of_le hlt (Nat.pow_le_pow_right (by decide) hn)
    refine ⟨BitVec.ofNat w (ofBits l), ?_, ?_, fun d rest => ?_⟩
    · rw [ubits, BitVec.toNat_ofNat, Nat.mod_eq_of_lt hlt', ← hl, natBits_ofBits]
    · rw [BitVec.toNat_ofNat, Nat.mod_eq_of_lt hlt']
      exact hlt
    · exact run_of_bind_ret (read_uint_raw w n .ret d l rest (by omega) hl (by omega))

theorem reads_uint (w : Nat) (h64 : w ≤ 64) : Reads (read_uint w) bits fun _ => True :=
  (reads_ubits w w (Nat.le_refl w) h64).weaken fun _ _ => trivial

theorem ensures_read_int_fst (w n : Nat) : Ensures (read_int w n) fun x => x.1 = n := by
  unfold read_int
  split
  · exact Ensures.throw
  · refine Ensures.bind (Ensures.any _) fun data _ => ?_
    dsimp only
    split
    · exact Ensures.ret rfl
    · split <;> exact Ensures.ret rfl

theorem reads_sbits (w n : Nat) (h0 : 0 < n) (hn : n ≤ w) (h64 : w ≤ 64) :
    Reads (read_int w n) (sbits n) (SFits n) := by
  refine reads_of_raw (n := n) _ _ _ (exact_read_int w n) (fun d s a s' h => ensures_read_int_fst w n d s a s' h) fun l hl => ?_
  match l, hl with
  | [], hl => simp at hl; omega
  | b :: t, hl =>
    have hl' : n = t.length + 1 := by simpa using hl.symm
    subst hl'
    have hlt := ofBits_lt t
    have hpw : (2 : Int) ^ t.length * 2 ≤ 2 ^ w := by
      have : (2 : Nat) ^ (t.length + 1) ≤ 2 ^ w := Nat.pow_le_pow_right (by decide) hn
      rw [Nat.pow_succ] at this
      exact_mod_cast this
    have hlt' : (ofBits t : Int) < 2 ^ t.length := by exact_mod_cast hlt
    have hpos : (0 : Int) < 2 ^ t.length := Int.pow_pos (by decide)
    have hx1 : -(2 ^ t.length : Int) ≤ (ofBits t : Int) - (if b then 2 ^ t.length else 0) := by split <;> omega
    have hx2 : (ofBits t : Int) - (if b then 2 ^ t.length else 0) < 2 ^ t.length := by split <;> omega
    have hti : (BitVec.ofInt w ((ofBits t : Int) - if b then 2 ^ t.length else 0)).toInt
        = (ofBits t : Int) - if b then 2 ^ t.length else 0 := by
      rw [BitVec.toInt_ofInt]
      apply Int.bmod_eq_of_le
      · push_cast; omega
      · push_cast; omega
    refine ⟨BitVec.ofInt w ((ofBits t : Int) - if b then 2 ^ t.length else 0), ?_, ⟨?_, ?_⟩, fun d rest => ?_⟩
    · rw [sbits, Nat.add_sub_cancel]
      congr 1
      · rw [BitVec.msb_eq_toInt, hti]
        cases b <;> simp <;> omega
      · rw [BitVec.toNat_ofInt, ← natBits_mod]
        have hmod : (((ofBits t : Int) - if b then 2 ^ t.length else 0) % ((2 ^ w : Nat) : Int)).toNat % 2 ^ t.length = ofBits t := by
          have hdvd : ((2 ^ t.length : Nat) : Int) ∣ ((2 ^ w : Nat) : Int) := by
            exact_mod_cast Nat.pow_dvd_pow 2 (by omega)
          have h1 : ((((ofBits t : Int) - if b then 2 ^ t.length else 0) % ((2 ^ w : Nat) : Int)).toNat : Int)
              = ((ofBits t : Int) - if b then 2 ^ t.length else 0) % ((2 ^ w : Nat) : Int) :=
            Int.toNat_of_nonneg (Int.emod_nonneg _ (by push_cast; omega))
          have h2 : (((((ofBits t : Int) - if b then 2 ^ t.length else 0) % ((2 ^ w : Nat) : Int)).toNat % 2 ^ t.length : Nat) : Int)
              = (ofBits t : Int) := by
            rw [Int.natCast_emod, h1, Int.emod_emod_of_dvd _ hdvd]
            push_cast
            cases b
            · simp only [Bool.false_eq_true, if_false, Int.sub_zero]
              exact Int.emod_eq_of_lt (by omega) hlt'
            · simp only [if_true]
              rw [Int.sub_emod_right]
              exact Int.emod_eq_of_lt (by omega) hlt'
          exact_mod_cast h2
        rw [hmod, natBits_ofBits]
    · rw [hti]; simpa using hx1
    · rw [hti]; simpa using hx2
    · exact run_of_bind_ret (read_int_raw w .ret d b t rest (by omega) h64)

theorem reads_int (w : Nat) (h0 : 0 < w) (h64 : w ≤ 64) : Reads (read_int w) bits fun _ => True := by
  intro d s n a s' hr
  refine ⟨?_, trivial⟩
  rw [bits_eq_msb a h0]
  exact (reads_sbits w w h0 (Nat.le_refl w) h64 d s n a s' hr).1

theorem reads_bool : Reads read_bool bbit fun _ => True := by
  intro d s n a s' hr
  obtain ⟨c, hc, hm⟩ := exact_read_bool d s n a s' hr
  match s, hr with
  | [], hr => cases hr
  | b :: s, hr =>
    rw [run_of_bind_ret (run_read_bool .ret d b s)] at hr
    cases hr
    exact ⟨rfl, trivial⟩

theorem reads_readN {p : R (Nat × α)} {e : α → List Bool} {P : α → Prop} (hp : Reads p e P) (k : Nat) :
    Reads (readN p k) (fun l => l.flatMap e) fun l => l.length = k ∧ ∀ x ∈ l, P x := by
  induction k with
  | zero =>
    refine ReadsFrom.start (show ReadsFrom [] (.ret (0, [])) _ _ from ReadsFrom.ret ⟨rfl, rfl, by simp⟩)
  | succ k ih =>
    rw [readN]
    refine ReadsFrom.start ?_
    refine ReadsFrom.bind hp fun _ a ha => ?_
    refine ReadsFrom.bind ih fun _ l hl => ?_
    refine ReadsFrom.ret ⟨by simp, by simp [hl.1], ?_⟩
    intro x hx
    rcases List.mem_cons.1 hx with rfl | hx
    · exact ha
    · exact hl.2 x hx

theorem reads_vector (w k : Nat) (h64 : w ≤ 64) :
    Reads (read_vector_uint w k) (fun l => l.flatMap bits) fun l => l.length = k :=
  (reads_readN (reads_uint w h64) k).weaken fun _ h => h.1

theorem vbits_ofFn {w n : Nat} (l : List (BitVec w)) (h : l.length = n) :
    vbits (Vector.ofFn fun i : Fin n => l.getD i 0) = l.flatMap bits := by
  subst h
  rw [vbits]
  congr 1
  apply List.ext_getElem
  · simp
  · intro i h1 h2
    simp [List.getD_eq_getElem?_getD, h2]

theorem reads_arr (w n : Nat) (h64 : w ≤ 64) : Reads (read_arr w n) vbits fun _ => True := by
  rw [read_arr]
  refine ReadsFrom.start (ReadsFrom.bind (reads_readN (reads_uint w h64) n) fun _ l hl => ReadsFrom.ret ⟨?_, trivial⟩)
  rw [vbits_ofFn l hl.1]
  simp

theorem reads_arr_int (w n : Nat) (h0 : 0 < w) (h64 : w ≤ 64) : Reads (read_arr_int w n) vbits fun _ => True := by
  rw [read_arr_int]
  refine ReadsFrom.start (ReadsFrom.bind (reads_readN (reads_int w h0 h64) n) fun _ l hl => ReadsFrom.ret ⟨?_, trivial⟩)
  rw [vbits_ofFn l hl.1]
  simp

theorem reads_code4 : Reads read_array_uint8_4 code4 fun _ => True := by
  rw [read_array_uint8_4]
  refine ReadsFrom.start ?_
  refine ReadsFrom.bind (reads_uint 8 (by decide)) fun _ _ _ => ?_
  refine ReadsFrom.bind (reads_uint 8 (by decide)) fun _ _ _ => ?_
  refine ReadsFrom.bind (reads_uint 8 (by decide)) fun _ _ _ => ?_
  refine ReadsFrom.bind (reads_uint 8 (by decide)) fun _ _ _ => ?_
  exact ReadsFrom.ret ⟨by simp [code4], trivial⟩

theorem reads_fullBox : Reads FullBox.readVersionAndFlag fbits fun _ => True := by
  rw [FullBox.readVersionAndFlag]
  refine ReadsFrom.start ?_
  refine ReadsFrom.bind (reads_uint 8 (by decide)) fun _ _ _ => ?_
  refine ReadsFrom.bind (reads_uint 8 (by decide)) fun _ _ _ => ?_
  refine ReadsFrom.bind (reads_uint 8 (by decide)) fun _ _ _ => ?_
  refine ReadsFrom.bind (reads_uint 8 (by decide)) fun _ _ _ => ?_
  exact ReadsFrom.ret ⟨by simp [fbits], trivial⟩

theorem reads_opt {p : R (Nat × α)} {e : α → List Bool} {P : α → Prop} (hp : Reads p e P) (c : Bool) (old : α) :
    Reads (R.opt c p old) (fun a => onlyIf c (e a)) fun a => if c then P a else a = old := by
  cases c
  · exact ReadsFrom.start (show ReadsFrom [] (.ret (0, old)) _ _ from ReadsFrom.ret ⟨rfl, by simp⟩)
  · exact hp

theorem reads_time (fb : FullBox) : Reads (read_uint 64 (vw fb)) (Layout.time fb) (TimeFits fb) := by
  unfold vw Layout.time TimeFits
  by_cases h : fb.version = 0#8
  · simp only [h, if_true]
    exact (reads_ubits 64 32 (by decide) (by decide)).weaken fun _ h => fun _ => h
  · simp only [h, if_false]
    exact (reads_uint 64 (by decide)).weaken fun _ h => fun h => h.elim

theorem reads_stime (fb : FullBox) : Reads (read_int 64 (vw fb)) (Layout.stime fb) (STimeFits fb) := by
  unfold vw Layout.stime STimeFits
  by_cases h : fb.version = 0#8
  · simp only [h, if_true]
    exact (reads_sbits 64 32 (by decide) (by decide) (by decide)).weaken fun _ h => fun _ => h
  · simp only [h, if_false]
    exact (reads_int 64 (by decide) (by decide)).weaken fun _ h => fun h => h.elim

/-- The count field in front of a vector with that many elements. -/
theorem cbits_toNat {w : Nat} (v : BitVec w) : cbits w v.toNat = bits v := rfl

end Mp4
