import Verif.BitIO.Prog
import Verif.BitIO.ObjectsLemmas

/-! # Lemmas about encoder and decoder programs -/

namespace Mp4

namespace W
variable {α β γ : Type}

theorem ext' {m n : W α} (h : m.out = n.out) (h' : m.res = n.res) : m = n := by
  cases m; cases n; simp_all

@[simp] theorem pure_eq (a : α) : (Pure.pure a : W α) = ⟨[], .ok a⟩ := rfl
@[simp] theorem bind_eq (m : W α) (f : α → W β) : (m >>= f) = m.bind f := rfl
@[simp] theorem bind_ok (o : List Bool) (a : α) (f : α → W β) :
    (W.mk o (.ok a)).bind f = ⟨o ++ (f a).out, (f a).res⟩ := rfl
@[simp] theorem bind_error (o : List Bool) (e : Err) (f : α → W β) :
    (W.mk o (.error e)).bind f = ⟨o, .error e⟩ := rfl
@[simp] theorem eta (m : W α) : (W.mk m.out m.res) = m := rfl

theorem bind_assoc' (m : W α) (f : α → W β) (g : β → W γ) :
    (m.bind f).bind g = m.bind fun a => (f a).bind g := by
  rcases m with ⟨o, _ | a⟩
  · rfl
  · rcases h : f a with ⟨o', _ | b⟩ <;> simp [h]

instance : LawfulMonad W := LawfulMonad.mk' (m := W)
  (id_map := by
    intro α x; rcases x with ⟨o, _ | a⟩ <;> simp [Functor.map, bind, pure])
  (pure_bind := by intro α β a f; simp [bind_eq])
  (bind_assoc := by intro α β γ x f g; exact bind_assoc' x f g)

/-- Running a sequence is running the parts one after the other. -/
theorem runC_bind (m : W α) (f : α → W β) (w : Writer) :
    (m.bind f).runC w =
      match m.runC w with
      | (.ok a, w') => (f a).runC w'
      | (.error e, w') => (.error e, w') := by
  rcases m with ⟨o, _ | a⟩
  · rfl
  · simp [runC, Writer.push_append]

end W

namespace R
variable {α β γ : Type}

@[simp] theorem pure_eq (a : α) : (Pure.pure a : R α) = .ret a := rfl
@[simp] theorem bind_eq (m : R α) (f : α → R β) : (m >>= f) = m.bind f := rfl
@[simp] theorem ret_bind (a : α) (f : α → R β) : (R.ret a).bind f = f a := rfl
@[simp] theorem throw_bind (e : Err) (f : α → R β) : (R.throw e).bind f = .throw e := rfl

theorem bind_assoc' (m : R α) (f : α → R β) (g : β → R γ) :
    (m.bind f).bind g = m.bind fun a => (f a).bind g := by
  induction m with
  | ret a => rfl
  | throw e => rfl
  | bit k ih => simp only [bind]; congr 1; funext b; exact ih b
  | toEnd k ih => simp only [bind]; congr 1; funext b; exact ih b
  | tell k ih => simp only [bind]; congr 1; funext b; exact ih b
  | seek o k ih => simp only [bind]; congr 1

theorem bind_ret (m : R α) : m.bind .ret = m := by
  induction m with
  | ret a => rfl
  | throw e => rfl
  | bit k ih => simp only [bind]; congr 1; funext b; exact ih b
  | toEnd k ih => simp only [bind]; congr 1; funext b; exact ih b
  | tell k ih => simp only [bind]; congr 1; funext b; exact ih b
  | seek o k ih => simp only [bind]; congr 1

instance : LawfulMonad R := LawfulMonad.mk' (m := R)
  (id_map := by intro α x; exact bind_ret x)
  (pure_bind := by intro α β a f; rfl)
  (bind_assoc := by intro α β γ x f g; exact bind_assoc' x f g)

/-- Sequencing in the abstract semantics. -/
theorem run_bind (m : R α) (f : α → R β) (d : List Byte) (s : List Bool) :
    (m.bind f).run d s =
      match m.run d s with
      | .ok (a, s') => (f a).run d s'
      | .error e => .error e := by
  induction m generalizing s with
  | ret a => rfl
  | throw e => rfl
  | bit k ih =>
    cases s with
    | nil => rfl
    | cons b s => simp only [bind, run]; exact ih b s
  | toEnd k ih => simp only [bind, run]; exact ih _ s
  | tell k ih => simp only [bind, run]; exact ih _ s
  | seek o k ih =>
    simp only [bind, run]
    by_cases h : o ≤ d.length
    · rw [if_pos h, if_pos h]; exact ih _
    · rw [if_neg h, if_neg h]

theorem run_bind_ok {m : R α} {f : α → R β} {d : List Byte} {s s' : List Bool} {a : α}
    (h : m.run d s = .ok (a, s')) : (m.bind f).run d s = (f a).run d s' := by
  rw [run_bind, h]

@[simp] theorem run_ret (a : α) (d : List Byte) (s : List Bool) : (R.ret a).run d s = .ok (a, s) := rfl
@[simp] theorem run_throw (e : Err) (d : List Byte) (s : List Bool) :
    (R.throw e : R α).run d s = .error e := rfl
@[simp] theorem run_offsetToEnd (f : Nat → R β) (d : List Byte) (s : List Bool) :
    (offsetToEnd.bind f).run d s = (f (s.length / 8)).run d s := rfl
@[simp] theorem run_tellg (f : Nat → R β) (d : List Byte) (s : List Bool) :
    (tellg.bind f).run d s = (f (d.length - s.length / 8)).run d s := rfl

theorem run_readBitList (n : Nat) (d : List Byte) (l rest : List Bool) (h : l.length = n) :
    (readBitList n).run d (l ++ rest) = .ok (l, rest) := by
  induction n generalizing l with
  | zero =>
    have : l = [] := List.eq_nil_of_length_eq_zero h
    subst this; rfl
  | succ n ih =>
    cases l with
    | nil => simp at h
    | cons b l =>
      simp only [readBitList, List.cons_append, run]
      rw [run_bind_ok (ih l (by simpa using h))]
      rfl

theorem run_readBitList_eof (n : Nat) (d : List Byte) (l : List Bool) (h : l.length < n) :
    (readBitList n).run d l = .error .eof := by
  induction n generalizing l with
  | zero => simp at h
  | succ n ih =>
    cases l with
    | nil => rfl
    | cons b l =>
      simp only [readBitList, run]
      rw [run_bind, ih l (by simpa using h)]

/-- The abstract semantics is exact: on every reachable reader object the program gives the same result, and
the objects stay related. -/
theorem runC_run (m : R α) (r : Reader) (h : r.Inv) :
    match m.run r.is.data r.rem with
    | .ok (a, s) => ∃ r', m.runC r = .ok (a, r') ∧ r'.rem = s ∧ r'.Inv ∧ r'.is.data = r.is.data
    | .error e => m.runC r = .error e := by
  induction m generalizing r with
  | ret a => exact ⟨r, rfl, rfl, h, rfl⟩
  | throw e => rfl
  | bit k ih =>
    cases hr : r.rem with
    | nil => simp [run, runC, r.readBit_nil h hr]
    | cons b t =>
      obtain ⟨r1, e1, e2, e3, e4⟩ := r.readBit_cons h b t hr
      have := ih b r1 e3
      rw [e2, e4] at this
      simp only [run, runC, e1]
      exact this
  | toEnd k ih =>
    have e : r.rem.length / 8 = r.is.data.length - r.is.pos := by
      have := h.1
      simp [Reader.rem]; omega
    simp only [run, runC, e]; exact ih _ r h
  | tell k ih =>
    have e : r.is.data.length - r.rem.length / 8 = r.is.pos := by
      have := h.1
      have := h.2
      simp [Reader.rem]; omega
    simp only [run, runC, e]; exact ih _ r h
  | seek o k ih =>
    by_cases ho : o ≤ r.is.data.length
    · simp only [run, runC, if_pos ho]
      have hi : ({ r with is := { r.is with pos := o } } : Reader).Inv := ⟨h.1, ho⟩
      have e : r.rem.take (r.rem.length % 8) ++ bytesBits (r.is.data.drop o)
          = ({ r with is := { r.is with pos := o } } : Reader).rem := by
        have hl : r.rem.length % 8 = r.width := by
          have := h.1
          simp [Reader.rem]; omega
        rw [hl]
        simp [Reader.rem]
      rw [e]
      exact ih _ hi
    · simp [run, runC, if_neg ho]

end R
end Mp4
