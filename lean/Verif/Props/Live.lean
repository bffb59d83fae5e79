import Verif.Lemmas.Live
import Verif.Props.Reader

/-! # C80: a stream that changes after the reader was constructed, or cannot be read everywhere -/

namespace Mp4
open SimpleReader

/-- **C80** `read` comes to an end, whatever has happened to the stream. -/
theorem C80_ends (lr : LiveReader) (hlen : lr.sr.data.length < 2 ^ 63) : ∃ r, lr.read = some r := by
  have h : readLoop (lr.readBox (lr.sr.data.length + 2) [] false) lr.total (lr.sr.data.length + 2) 0 0 ≠ none := by
    intro h
    exact LiveReader.loop_enough lr.sr hlen _ _ _ _ _ _ _ (by omega) (by omega)
      (LiveReader.none_loop (lr.none_all hlen _ _ _) (fun pos vs x h => ((lr.ok_same hlen _).1 _ _ pos vs x h).1) _ _ _ _ h)
  rw [LiveReader.read]
  generalize readLoop (lr.readBox (lr.sr.data.length + 2) [] false) lr.total (lr.sr.data.length + 2) 0 0 = q at h
  match q, h with
  | none, h => exact absurd rfl h
  | some ⟨vs, .error e⟩, _ => exact ⟨_, rfl⟩
  | some ⟨vs, .ok (ts, p)⟩, _ => exact ⟨_, rfl⟩

theorem LiveReader.read_ok {lr : LiveReader} {vs : List BoxHeader} {ts : List Tree} (h : lr.read = some ⟨vs, .ok ts⟩) :
    ∃ p, readLoop (lr.readBox (lr.sr.data.length + 2) [] false) lr.total (lr.sr.data.length + 2) 0 0 = some ⟨vs, .ok (ts, p)⟩ := by
  rw [LiveReader.read] at h
  generalize readLoop (lr.readBox (lr.sr.data.length + 2) [] false) lr.total (lr.sr.data.length + 2) 0 0 = q at h
  match q, h with
  | some ⟨vs, .ok (ts, p)⟩, h => cases h; exact ⟨p, rfl⟩

/-- Where a byte of a tiled stretch lies: in one of the boxes. -/
theorem tiled_mem : ∀ (ts : List Tree) (s e q : Nat), Tree.TiledList ts s e → s ≤ q → q < e →
    ∃ t ∈ ts, ∃ h, t.box.header = some h ∧ h.offset ≤ q ∧ q < h.offset + h.size
  | [], s, e, q, h, h1, h2 => by have h : s = e := h; omega
  | t :: ts, s, e, q, h, h1, h2 => by
    obtain ⟨m, k1, k2⟩ := h
    by_cases hq : q < m
    · obtain ⟨b, p, ls⟩ := t
      obtain ⟨hd, k3, k4, k5, -⟩ := k1
      exact ⟨_, List.mem_cons_self, hd, k3, by omega, by omega⟩
    · obtain ⟨t', k3, k4⟩ := tiled_mem ts m e q k2 (by omega) h2
      exact ⟨t', List.mem_cons_of_mem _ k3, k4⟩

/-- **C80** On a stream that has not changed since the constructor: `read` does what it does when every byte can be read, or its behaviour
is undefined, and the latter only when some byte cannot be read.  It never reports a read error by an exception of its own. -/
theorem C80_same_or_undefined (lr : LiveReader) (hlen : lr.sr.data.length < 2 ^ 63) (ht : lr.total = lr.sr.data.length) :
    lr.read = lr.sr.read ∨
      (∃ vs w, lr.read = some ⟨vs, .error (.ub w)⟩) ∧ ∃ p, p < lr.sr.data.length ∧ lr.readable p = false := by
  rw [LiveReader.read, SimpleReader.read, readWith, ht]
  rcases LiveReader.split_loop (D := lr.Defect) (lr.split_all hlen ht (lr.sr.data.length + 2) [] false) lr.sr.data.length (lr.sr.data.length + 2) 0 0 with
    h | ⟨⟨vs, w, h⟩, hd⟩
  · left
    rw [h]
    generalize readLoop (lr.sr.readBox (lr.sr.data.length + 2) [] false) lr.sr.data.length (lr.sr.data.length + 2) 0 0 = q
    match q with
    | none => rfl
    | some ⟨vs, .error e⟩ => rfl
    | some ⟨vs, .ok (ts, p)⟩ => rfl
  · right; rw [h]; exact ⟨⟨vs, w, rfl⟩, hd⟩

/-- **C80** On a stream that has not changed: `read` returns normally exactly when it does so with every byte readable and every byte of
the stream can be read; it looks at all of them. -/
theorem C80_accepts (lr : LiveReader) (hlen : lr.sr.data.length < 2 ^ 63) (ht : lr.total = lr.sr.data.length) (vs : List BoxHeader)
    (ts : List Tree) :
    lr.read = some ⟨vs, .ok ts⟩ ↔ lr.sr.read = some ⟨vs, .ok ts⟩ ∧ ∀ p, p < lr.sr.data.length → lr.readable p = true := by
  constructor
  · intro h
    have hsr : lr.sr.read = some ⟨vs, .ok ts⟩ := by
      rcases C80_same_or_undefined lr hlen ht with e | ⟨⟨us, w, e⟩, -⟩
      · rw [← e]; exact h
      · rw [e] at h; cases h
    refine ⟨hsr, fun q hq => ?_⟩
    obtain ⟨p, hl⟩ := LiveReader.read_ok h
    obtain ⟨t, k1, hd, k2, k3, k4⟩ := tiled_mem ts 0 _ q (C30_tiling lr.sr hlen vs ts hsr).1 (Nat.zero_le _) hq
    obtain ⟨hd', k5, k6⟩ := ((lr.ok_same hlen _).2 _ _ _ _ _ _ _ _ hl).2 t k1
    rw [k2] at k5
    cases k5
    exact k6 q k3 k4
  · rintro ⟨h, hall⟩
    rcases C80_same_or_undefined lr hlen ht with e | ⟨-, p, hp, hq⟩
    · rw [e]; exact h
    · rw [hall p hp] at hq; cases hq

/-- **C80** So a byte that cannot be read, anywhere in a file that would be accepted, makes the behaviour of `read` undefined. -/
theorem C80_unreadable (lr : LiveReader) (hlen : lr.sr.data.length < 2 ^ 63) (ht : lr.total = lr.sr.data.length) (vs : List BoxHeader)
    (ts : List Tree) (h : lr.sr.read = some ⟨vs, .ok ts⟩) (p : Nat) (hp : p < lr.sr.data.length) (hq : lr.readable p = false) :
    ∃ us w, lr.read = some ⟨us, .error (.ub w)⟩ := by
  rcases C80_same_or_undefined lr hlen ht with e | ⟨e, -⟩
  · have := ((C80_accepts lr hlen ht vs ts).mp (e.trans h)).2 p hp
    rw [hq] at this; cases this
  · exact e

/-- **C80** When the stream has become shorter since the constructor, `read` never returns normally. -/
theorem C80_shrunk (lr : LiveReader) (ht : lr.total < 2 ^ 63) (hs : lr.sr.data.length < lr.total) :
    ∃ vs e, lr.read = some ⟨vs, .error e⟩ := by
  obtain ⟨⟨vs, r⟩, h⟩ := C80_ends lr (by omega)
  cases r with
  | error e => exact ⟨vs, e, h⟩
  | ok ts =>
    exfalso
    obtain ⟨p, hl⟩ := LiveReader.read_ok h
    have := LiveReader.loop_inside lr.sr (by omega) _ _ _ _ _ ht _ _ _ _ (((lr.ok_same (by omega) _).2 _ _ _ _ _ _ _ _ hl).1) (by omega)
    omega

/-- **C80** When bytes have been appended to the stream since the constructor, and the stream was acceptable before: `read` gives the same
as before, unless some box has size 0 (it extends to the end of the file); then it throws. -/
theorem C80_grown (lr : LiveReader) (hlen : lr.sr.data.length < 2 ^ 63) (ht : lr.total < lr.sr.data.length) (hr : ∀ p, lr.readable p = true)
    (vs : List BoxHeader) (ts : List Tree) (hb : ({ lr.sr with data := lr.sr.data.take lr.total } : SimpleReader).read = some ⟨vs, .ok ts⟩) :
    ((∀ h ∈ vs, h.extendToEof = false) → lr.read = some ⟨vs, .ok ts⟩) ∧
    ((∃ h ∈ vs, h.extendToEof = true) → ∃ us w, lr.read = some ⟨us, .error (.exc w)⟩) := by
  have hlt : lr.before.data.length = lr.total := by
    show (lr.sr.data.take lr.total).length = _
    rw [List.length_take]; omega
  have hb : lr.before.read = some ⟨vs, .ok ts⟩ := hb
  have hw : lr.before.readWith (lr.sr.data.length + 2) = some ⟨vs, .ok ts⟩ := by
    obtain ⟨r, h1, h2, -⟩ := C28_terminates lr.before (by omega)
    rw [hb] at h1
    cases h1
    have := h2 (lr.sr.data.length - lr.total)
    rw [hlt, show lr.total + 2 + (lr.sr.data.length - lr.total) = lr.sr.data.length + 2 by omega] at this
    exact this
  rw [readWith, hlt] at hw
  rw [LiveReader.read]
  cases hq : readLoop (lr.before.readBox (lr.sr.data.length + 2) [] false) lr.total (lr.sr.data.length + 2) 0 0 with
  | none => rw [hq] at hw; cases hw
  | some r =>
    rw [hq] at hw
    obtain ⟨us, r⟩ := r
    cases r with
    | error e => cases hw
    | ok x =>
      obtain ⟨ts', p⟩ := x
      cases hw
      rcases LiveReader.grown_loop (lr.grown_all hlen ht hr (lr.sr.data.length + 2) [] false) lr.total (lr.sr.data.length + 2) 0 0 _ _ hq with
        ⟨h1, h2⟩ | ⟨⟨h, h1, h1'⟩, us', w, h2⟩
      · rw [h2]
        refine ⟨fun _ => rfl, ?_⟩
        rintro ⟨h, h3, h4⟩
        rw [h1 h h3] at h4; cases h4
      · rw [h2]
        refine ⟨fun h3 => ?_, fun _ => ⟨us', w, rfl⟩⟩
        rw [h3 h h1] at h1'; cases h1'

end Mp4
