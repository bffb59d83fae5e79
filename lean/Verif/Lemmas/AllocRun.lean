import Verif.Lemmas.Alloc
import Verif.Spec.Alloc

/-! # Runs with an allocator that may refuse -/

namespace Mp4
variable {α β : Type}
open Spec

theorem granted_append (g : A.Policy) : ∀ (a log b : List Nat), Granted g log (a ++ b) ↔ Granted g log a ∧ Granted g (log ++ a) b := by
  intro a
  induction a with
  | nil => intro log b; simp [Granted]
  | cons n a ih =>
    intro log b
    show (_ ∧ Granted g (log ++ [n]) (a ++ b)) ↔ (_ ∧ Granted g (log ++ [n]) a) ∧ _
    rw [ih, List.append_assoc, List.singleton_append, and_assoc]

/-- With the allocator `g`, after the requests in `log`, the outcome is `out`; with unlimited memory the result is `res` and the requests are
`all`. -/
def AllocFollows {X : Type} (g : A.Policy) (log : List Nat) (res : X) (bad : X → Prop) (all : List Nat) (out : X × List Nat) : Prop :=
  (out = (res, log ++ all) ∧ Granted g log all) ∨
    ∃ new, out.2 = log ++ new ∧ RefusedAtLast g log new ∧ new <+: all ∧ bad out.1

theorem RefusedAtLast.after {g : A.Policy} {log a b : List Nat} (ha : Granted g log a) (hb : RefusedAtLast g (log ++ a) b) : RefusedAtLast g log (a ++ b) := by
  obtain ⟨c, n, rfl, hc, hn⟩ := hb
  refine ⟨a ++ c, n, by rw [List.append_assoc], (granted_append g a log c).mpr ⟨ha, hc⟩, ?_⟩
  rw [← List.append_assoc]
  exact hn

namespace A

/-- The requests that a program makes with unlimited memory. -/
def asks : A α → Reader → List Nat
  | .ret _, _ => []
  | .throw _, _ => []
  | .bit k, r =>
    match r.readBit with
    | .error _ => []
    | .ok (b, r) => (k b).asks r
  | .toEnd k, r => (k (r.is.data.length - r.is.pos)).asks r
  | .tell k, r => (k r.is.pos).asks r
  | .seek o k, r => if o ≤ r.is.data.length then k.asks { r with is := { r.is with pos := o } } else []
  | .alloc n k, r => n :: k.asks r

theorem runC_follows (g : Policy) (p : A α) : ∀ r log, AllocFollows g log (p.erase.runC r) (· = .error badAlloc) (p.asks r) (p.runC g r log) := by
  induction p with
  | ret a => intro r log; left; simp [runC, erase, R.runC, asks, Granted]
  | throw e => intro r log; left; simp [runC, erase, R.runC, asks, Granted]
  | bit k ih =>
    intro r log
    rw [runC, erase, R.runC, asks]
    cases h : r.readBit with
    | error e => left; simp [Granted]
    | ok x =>
      obtain ⟨b, r'⟩ := x
      exact ih b r' log
  | toEnd k ih => intro r log; rw [runC, erase, R.runC, asks]; exact ih _ r log
  | tell k ih => intro r log; rw [runC, erase, R.runC, asks]; exact ih _ r log
  | seek o k ih =>
    intro r log
    rw [runC, erase, R.runC, asks]
    split
    · exact ih _ log
    · left; simp [Granted]
  | alloc n k ih =>
    intro r log
    rw [runC, erase, asks]
    split
    · rename_i hg
      rcases ih r (log ++ [n]) with ⟨h1, h2⟩ | ⟨new, h1, h2, h3, h4⟩
      · left
        refine ⟨by rw [h1, List.append_assoc, List.singleton_append], hg, h2⟩
      · right
        refine ⟨n :: new, by rw [h1, List.append_assoc, List.singleton_append], ?_, (List.cons_prefix_cons).mpr ⟨rfl, h3⟩, h4⟩
        exact RefusedAtLast.after (a := [n]) ⟨hg, trivial⟩ h2
    · rename_i hg
      right
      refine ⟨[n], rfl, ⟨[], n, rfl, trivial, by simpa using hg⟩, ⟨k.asks r, rfl⟩, rfl⟩

theorem asks_lift (p : R α) : ∀ r, (lift p).asks r = [] := by
  induction p with
  | ret | throw => intro r; rfl
  | bit k ih =>
    intro r
    rw [lift, asks]
    split
    · rfl
    · exact ih _ _
  | toEnd k ih | tell k ih => intro r; rw [lift, asks]; exact ih _ _
  | seek o k ih =>
    intro r
    rw [lift, asks]
    split
    · exact ih _
    · rfl

theorem asks_bind (p : A α) (f : α → A β) : ∀ r, (p.bind f).asks r = p.asks r ++
    match p.erase.runC r with
    | .error _ => []
    | .ok (a, r) => (f a).asks r := by
  induction p with
  | ret a => intro r; rfl
  | throw e => intro r; rfl
  | bit k ih =>
    intro r
    rw [bind, asks, asks, erase, R.runC]
    cases h : r.readBit with
    | error e => rfl
    | ok x =>
      obtain ⟨b, r'⟩ := x
      exact ih b r'
  | toEnd k ih => intro r; rw [bind, asks, asks, erase, R.runC]; exact ih _ r
  | tell k ih => intro r; rw [bind, asks, asks, erase, R.runC]; exact ih _ r
  | seek o k ih =>
    intro r
    rw [bind, asks, asks, erase, R.runC]
    by_cases h : o ≤ r.is.data.length
    · rw [if_pos h, if_pos h, if_pos h]; exact ih _
    · rw [if_neg h, if_neg h, if_neg h]; rfl
  | alloc n k ih => intro r; rw [bind, asks, asks, erase, ih]; rfl

/-! ### At most as many elements as the result holds -/

/-- If `p` ends normally, the result and the number of elements requested satisfy `Q`. -/
def Asked (p : A α) (Q : α → Nat → Prop) : Prop := ∀ r a r', p.erase.runC r = .ok (a, r') → Q a (p.asks r).sum

theorem runC_bind (p : R α) (f : α → R β) : ∀ r, (p.bind f).runC r =
    match p.runC r with
    | .error e => .error e
    | .ok (a, r) => (f a).runC r := by
  induction p with
  | ret a => intro r; rfl
  | throw e => intro r; rfl
  | bit k ih =>
    intro r
    rw [R.bind, R.runC, R.runC]
    cases h : r.readBit with
    | error e => rfl
    | ok x => obtain ⟨b, r'⟩ := x; exact ih b r'
  | toEnd k ih => intro r; rw [R.bind, R.runC, R.runC]; exact ih _ r
  | tell k ih => intro r; rw [R.bind, R.runC, R.runC]; exact ih _ r
  | seek o k ih =>
    intro r
    rw [R.bind, R.runC, R.runC]
    by_cases h : o ≤ r.is.data.length
    · rw [if_pos h, if_pos h]; exact ih _
    · rw [if_neg h, if_neg h]

theorem Asked.bind {p : A α} {f : α → A β} {P : α → Nat → Prop} {Q : β → Nat → Prop} (hp : Asked p P)
    (hf : ∀ a n, P a n → Asked (f a) fun b m => Q b (n + m)) : Asked (p.bind f) Q := by
  intro r b r'' h
  rw [erase_bind, runC_bind] at h
  rw [asks_bind]
  cases h1 : p.erase.runC r with
  | error e => rw [h1] at h; cases h
  | ok x =>
    obtain ⟨a, r'⟩ := x
    rw [h1] at h
    dsimp only at h ⊢
    rw [List.sum_append]
    exact hf a _ (hp r a r' h1) r' b r'' h

theorem Asked.lift (p : R α) : Asked (A.lift p) fun _ n => n = 0 := by
  intro r a r' _
  rw [asks_lift]
  rfl

theorem Asked.ret {a : α} {Q : α → Nat → Prop} (h : Q a 0) : Asked (A.ret a) Q := by
  intro r a' r' h'
  cases h'
  exact h

theorem Asked.throw {e : Err} {Q : α → Nat → Prop} : Asked (A.throw e : A α) Q := by
  intro r a' r' h'
  cases h'

theorem Asked.ite {c : Prop} [Decidable c] {p q : A α} {Q : α → Nat → Prop} (hp : Asked p Q) (hq : Asked q Q) : Asked (if c then p else q) Q := by
  split
  · exact hp
  · exact hq

theorem Asked.mono {p : A α} {P Q : α → Nat → Prop} (hp : Asked p P) (h : ∀ a n, P a n → Q a n) : Asked p Q :=
  fun r a r' h' => h _ _ (hp r a r' h')

theorem length_readN (p : R (Nat × α)) (n : Nat) : ∀ r x r', (Mp4.readN p n).runC r = .ok (x, r') → x.2.length = n := by
  induction n with
  | zero => intro r x r' h; cases h; rfl
  | succ n ih =>
    intro r x r' h
    rw [Mp4.readN, R.bind_eq, runC_bind] at h
    cases h1 : p.runC r with
    | error e => rw [h1] at h; cases h
    | ok y =>
      obtain ⟨⟨a, y⟩, r1⟩ := y
      rw [h1] at h
      dsimp only at h
      rw [R.bind_eq, runC_bind] at h
      cases h2 : (Mp4.readN p n).runC r1 with
      | error e => rw [h2] at h; cases h
      | ok z =>
        obtain ⟨⟨b, z⟩, r2⟩ := z
        rw [h2] at h
        have := ih _ _ _ h2
        cases h
        simp only [List.length_cons] at this ⊢
        omega

theorem Asked.readN (p : R (Nat × α)) (n : Nat) : Asked (A.readN p n) fun x k => k = x.2.length := by
  intro r x r' h
  rw [erase_readN] at h
  rw [A.readN, asks, asks_lift, length_readN p n r x r' h]
  simp

theorem Asked.vector (w n : Nat) : Asked (A.read_vector_uint w n) fun x k => k = x.2.length := Asked.readN _ n

theorem Asked.loop {p : A (Nat × α)} {f : α → Nat} (hp : Asked p fun x k => k ≤ f x.2) (n : Nat) :
    Asked (A.loop p n) fun x k => x.2.length = n ∧ k ≤ (x.2.map f).sum := by
  induction n with
  | zero => exact Asked.ret ⟨rfl, Nat.le_refl _⟩
  | succ n ih =>
    rw [A.loop]
    simp only [bind_eq, pure_eq]
    refine Asked.bind hp fun x k h => ?_
    obtain ⟨a, x⟩ := x
    refine Asked.bind ih fun y m h2 => ?_
    obtain ⟨b, y⟩ := y
    refine Asked.ret ?_
    simp only [List.length_cons, List.map_cons, List.sum_cons] at h h2 ⊢
    omega

theorem Asked.pos {p : A (Nat × α)} {F : α → Nat} (hp : Asked p fun x k => 1 + k ≤ F x.2) (n : Nat) :
    Asked (A.loop p n) fun x _ => ∀ y ∈ x.2, 1 ≤ F y := by
  induction n with
  | zero => exact Asked.ret (fun y hy => by cases hy)
  | succ n ih =>
    rw [A.loop]
    simp only [bind_eq, pure_eq]
    refine Asked.bind hp fun x k h => ?_
    refine Asked.bind ih fun y m h2 => ?_
    refine Asked.ret fun z hz => ?_
    rcases List.mem_cons.mp hz with rfl | hz
    · omega
    · exact h2 z hz

theorem sum_succ (f : α → Nat) (l : List α) : (l.map fun x => 1 + f x).sum = l.length + (l.map f).sum := by
  induction l with
  | nil => rfl
  | cons a l ih => simp only [List.map_cons, List.sum_cons, List.length_cons, ih]; omega

theorem Asked.readNA {p : A (Nat × α)} {F : α → Nat} (hp : Asked p fun x k => 1 + k ≤ F x.2) (n : Nat) :
    Asked (A.readNA p n) fun x k => k ≤ (x.2.map F).sum := by
  intro r x r' h
  rw [A.readNA, erase] at h
  obtain ⟨h1, h2⟩ := Asked.loop (f := fun y => F y - 1) (hp.mono fun x k h => by omega) n r x r' h
  have h3 := Asked.pos hp n r x r' h
  rw [A.readNA, asks, List.sum_cons]
  have := sum_succ (fun y => F y - 1) x.2
  have e : (x.2.map fun y => 1 + (F y - 1)) = x.2.map F := by
    apply List.map_congr_left
    intro y hy
    have := h3 y hy
    omega
  rw [e] at this
  omega

/-! ### No request is larger than 2^32 - 1 and eight times the payload -/

def Below (B : Nat) : A α → Prop
  | .ret _ => True
  | .throw _ => True
  | .bit k => ∀ b, (k b).Below B
  | .toEnd k => ∀ n, n ≤ B → (k n).Below B
  | .tell k => ∀ n, (k n).Below B
  | .seek _ k => k.Below B
  | .alloc n k => (n < 2 ^ 32 ∨ n ≤ 8 * B) ∧ k.Below B

theorem Below.lift (B : Nat) (p : R α) : (A.lift p).Below B := by
  induction p with
  | ret | throw => trivial
  | bit k ih => exact fun b => ih b
  | toEnd k ih => exact fun b _ => ih b
  | tell k ih => exact fun b => ih b
  | seek o k ih => exact ih

theorem Below.bind {B : Nat} {p : A α} {f : α → A β} (hp : p.Below B) (hf : ∀ a, (f a).Below B) : (p.bind f).Below B := by
  induction p with
  | ret a => exact hf a
  | throw => trivial
  | bit k ih => exact fun b => ih b (hp b)
  | toEnd k ih => exact fun b h => ih b (hp b h)
  | tell k ih => exact fun b => ih b (hp b)
  | seek o k ih => exact ih hp
  | alloc n k ih => exact ⟨hp.1, ih hp.2⟩

theorem Below.bindEnd {B : Nat} {f : Nat → A β} (hf : ∀ n, n ≤ B → (f n).Below B) : ((A.lift R.offsetToEnd).bind f).Below B := hf

theorem Below.ite {B : Nat} {c : Prop} [Decidable c] {p q : A α} (hp : c → p.Below B) (hq : ¬c → q.Below B) : (if c then p else q).Below B := by
  split
  · exact hp ‹_›
  · exact hq ‹_›

theorem Below.readN {B : Nat} (p : R (Nat × α)) {n : Nat} (h : n < 2 ^ 32 ∨ n ≤ 8 * B) : (A.readN p n).Below B := ⟨h, Below.lift B _⟩

theorem Below.vector {B : Nat} (w : Nat) {n : Nat} (h : n < 2 ^ 32 ∨ n ≤ 8 * B) : (A.read_vector_uint w n).Below B := ⟨h, Below.lift B _⟩

theorem Below.loop {B : Nat} {p : A (Nat × α)} (hp : p.Below B) (n : Nat) : (A.loop p n).Below B := by
  induction n with
  | zero => trivial
  | succ n ih =>
    rw [A.loop]
    exact Below.bind hp fun _ => Below.bind ih fun _ => trivial

theorem Below.readNA {B : Nat} {p : A (Nat × α)} (hp : p.Below B) {n : Nat} (h : n < 2 ^ 32 ∨ n ≤ 8 * B) : (A.readNA p n).Below B :=
  ⟨h, Below.loop hp n⟩

theorem readBit_data {r r' : Reader} {b : Bool} (h : r.readBit = .ok (b, r')) : r'.is.data = r.is.data := by
  unfold Reader.readBit at h
  repeat' split at h
  all_goals first
    | cases h; rfl
    | (cases h)

theorem Below.asks {B : Nat} {p : A α} (hp : p.Below B) : ∀ r : Reader, r.is.data.length ≤ B → ∀ n ∈ p.asks r, n < 2 ^ 32 ∨ n ≤ 8 * B := by
  induction p with
  | ret | throw => intro r _ n hn; cases hn
  | bit k ih =>
    intro r hr n hn
    rw [A.asks] at hn
    cases h : r.readBit with
    | error e => rw [h] at hn; cases hn
    | ok x =>
      obtain ⟨b, r'⟩ := x
      rw [h] at hn
      exact ih b (hp b) r' (by rw [readBit_data h]; exact hr) n hn
  | toEnd k ih => intro r hr n hn; exact ih _ (hp _ (by omega)) r hr n hn
  | tell k ih => intro r hr n hn; exact ih _ (hp _) r hr n hn
  | seek o k ih =>
    intro r hr n hn
    rw [A.asks] at hn
    split at hn
    · exact ih hp { r with is := { r.is with pos := o } } hr n hn
    · cases hn
  | alloc m k ih =>
    intro r hr n hn
    rw [A.asks] at hn
    rcases List.mem_cons.mp hn with rfl | hn
    · exact hp.1
    · exact ih hp.2 r hr n hn

end A
end Mp4
