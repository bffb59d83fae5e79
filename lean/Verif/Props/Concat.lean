import Verif.Lemmas.Split
import Verif.Props.Reader

/-!
# C86: files can be put one behind the other

`A` is a file that is accepted and in which no box extends to the end of the file, `B` any file.
-/

namespace Mp4
open SimpleReader

namespace SimpleReader
variable (file : Bool) (env : Nat → Env) (map : BoxMap Kind) (A B : List Byte)

private theorem loop_fuel (f : Nat → Option (Run (Nat × Tree × Nat))) (limit k : Nat) : ∀ n done pos r,
    readLoop f limit n done pos = some r → readLoop f limit (n + k) done pos = some r := by
  intro n
  induction n with
  | zero => intro _ _ _ h; cases h
  | succ n ih =>
    intro done pos r h
    rw [show n + 1 + k = n + k + 1 by omega]
    rw [readLoop] at h ⊢
    split
    · next hb =>
      rw [if_pos hb] at h
      cases hf : f pos with
      | none => rw [hf] at h; cases h
      | some q =>
        rw [hf] at h
        obtain ⟨vs, res⟩ := q
        cases res with
        | error e => exact h
        | ok x =>
          obtain ⟨size, t, e⟩ := x
          dsimp only at h ⊢
          cases hq : readLoop f limit n (u64 (done + size)) e with
          | none => rw [hq] at h; cases h
          | some w => rw [ih _ _ _ hq]; rw [hq] at h; exact h
    · next hb => rw [if_neg hb] at h; exact h

private theorem loop_second (hl : (A ++ B).length < 2 ^ 63) (fuel : Nat) : ∀ n done pos r,
    readLoop ((second file env map A B).readBox fuel [] false) B.length n done pos = some r → done ≤ pos →
    readLoop ((both file env map A B).readBox fuel [] false) (A.length + B.length) n (done + A.length) (pos + A.length)
      = some (r.movedLoop A.length) := by
  rw [List.length_append] at hl
  intro n
  induction n with
  | zero => intro _ _ _ h; cases h
  | succ n ih =>
    intro done pos r h hd
    rw [readLoop] at h ⊢
    by_cases hb : B.length > done
    · rw [if_pos hb] at h
      rw [if_pos (by omega), box_shift]
      cases hf : (second file env map A B).readBox fuel [] false pos with
      | none => rw [hf] at h; cases h
      | some q =>
        rw [hf] at h
        obtain ⟨vs, res⟩ := q
        cases res with
        | error e => cases h; rfl
        | ok x =>
          obtain ⟨size, t, e⟩ := x
          obtain ⟨-, -, -, -, -, k1, k2, -⟩ := (good (second file env map A B) (by show B.length < _; omega) fuel).1 _ _ _ _ hf
          have k1 : pos + size ≤ B.length := k1
          have e1 : u64 (done + size) = done + size := Nat.mod_eq_of_lt (by omega)
          have e2 : u64 (done + A.length + size) = done + size + A.length := by
            rw [u64, Nat.mod_eq_of_lt (by omega)]; omega
          dsimp only [Option.map, Run.movedBox] at h ⊢
          rw [e1] at h
          rw [e2]
          cases hq : readLoop ((second file env map A B).readBox fuel [] false) B.length n (done + size) e with
          | none => rw [hq] at h; cases h
          | some w =>
            rw [hq] at h
            rw [ih _ _ _ hq (by omega)]
            obtain ⟨ws, res⟩ := w
            cases res with
            | error e => cases h; simp [Run.movedLoop]
            | ok y => obtain ⟨ts, e⟩ := y; cases h; simp [Run.movedLoop, Tree.movedList]
    · rw [if_neg hb] at h
      rw [if_neg (by omega)]
      cases h
      rfl

/-- What is read behind something already read. -/
private def behind (vs : List BoxHeader) (ts : List Tree) (r : Run (List Tree × Nat)) : Run (List Tree × Nat) :=
  ⟨vs ++ r.visits, match r.res with
    | .ok (us, e) => .ok (ts ++ us, e)
    | .error e => .error e⟩

private theorem loop_first (hl : (A ++ B).length < 2 ^ 63) (fuel m : Nat) (r : Run (List Tree × Nat))
    (hr : readLoop ((both file env map A B).readBox fuel [] false) (A.length + B.length) m A.length A.length = some r) :
    ∀ n done pos vs ts e, readLoop ((first env map A).readBox fuel [] false) A.length n done pos = some ⟨vs, .ok (ts, e)⟩ →
    (∀ h ∈ vs, h.extendToEof = false) → done ≤ pos → pos ≤ A.length →
    (A.length ≤ done → done = A.length) →
    readLoop ((both file env map A B).readBox fuel [] false) (A.length + B.length) (n + m) done pos = some (behind vs ts r) := by
  have hl' := hl
  rw [List.length_append] at hl
  intro n
  induction n with
  | zero => intro _ _ _ _ _ h; cases h
  | succ n ih =>
    intro done pos vs ts e h hne hd hp hda
    rw [readLoop] at h
    by_cases hb : A.length > done
    · rw [if_pos hb] at h
      rw [show n + 1 + m = n + m + 1 by omega, readLoop, if_pos (by omega)]
      cases hf : (first env map A).readBox fuel [] false pos with
      | none => rw [hf] at h; cases h
      | some q =>
        rw [hf] at h
        obtain ⟨us, res⟩ := q
        cases res with
        | error e => cases h
        | ok x =>
          obtain ⟨size, t, e'⟩ := x
          obtain ⟨-, -, -, -, -, k1, k2, -⟩ := (good (first env map A) (by show A.length < _; omega) fuel).1 _ _ _ _ hf
          have k1 : pos + size ≤ A.length := k1
          have k3 : e' ≤ A.length := box_end (first env map A) rfl fuel _ _ _ _ _ _ _ hf
          have e1 : u64 (done + size) = done + size := Nat.mod_eq_of_lt (by omega)
          dsimp only at h
          rw [e1] at h
          cases hq : readLoop ((first env map A).readBox fuel [] false) A.length n (done + size) e' with
          | none => rw [hq] at h; cases h
          | some w =>
            rw [hq] at h
            obtain ⟨ws, res⟩ := w
            cases res with
            | error e => cases h
            | ok y =>
              obtain ⟨ts', e''⟩ := y
              cases h
              rw [box_longer file env map A B hl' fuel _ _ _ _ _ _ _ hf (fun x hx => hne x (List.mem_append.mpr (.inl hx)))]
              dsimp only
              rw [e1, ih _ _ _ _ _ hq (fun x hx => hne x (List.mem_append.mpr (.inr hx))) (by omega) k3 (by omega)]
              obtain ⟨rs, res⟩ := r
              cases res with
              | error e => simp [behind]
              | ok y => obtain ⟨us', e⟩ := y; simp [behind]
    · rw [if_neg hb] at h
      cases h
      have e1 : done = A.length := hda (by omega)
      have e2 : pos = A.length := by omega
      rw [e1, e2, show n + 1 + m = m + (n + 1) by omega, loop_fuel _ _ _ _ _ _ _ hr]
      obtain ⟨rs, res⟩ := r
      cases res with
      | error e => simp [behind]
      | ok y => obtain ⟨us', e⟩ := y; simp [behind]

private theorem more_add (sr : SimpleReader) (k : Nat) : ∀ fuel n path wave limit done pos r,
    readLoop (sr.readBox fuel path wave) limit n done pos = some r →
    readLoop (sr.readBox (fuel + k) path wave) limit (n + k) done pos = some r := by
  induction k with
  | zero => intro _ _ _ _ _ _ _ _ h; exact h
  | succ k ih =>
    intro fuel n path wave limit done pos r h
    exact (more sr (fuel + k)).2 _ _ _ _ _ _ _ (ih _ _ _ _ _ _ _ _ h)

private theorem read_loop (sr : SimpleReader) (k : Nat) (hk : sr.data.length ≤ k) (vs : List BoxHeader) (res : Except Err (List Tree))
    (h : sr.read = some ⟨vs, res⟩) : ∃ x, readLoop (sr.readBox (k + 2) [] false) sr.data.length (k + 2) 0 0 = some ⟨vs, x⟩ ∧
      res = match x with | .ok (ts, _) => .ok ts | .error e => .error e := by
  rw [read, readWith] at h
  cases hq : readLoop (sr.readBox (sr.data.length + 2) [] false) sr.data.length (sr.data.length + 2) 0 0 with
  | none => rw [hq] at h; cases h
  | some r =>
    have := more_add sr (k - sr.data.length) _ _ _ _ _ _ _ _ hq
    rw [show sr.data.length + 2 + (k - sr.data.length) = k + 2 by omega] at this
    rw [hq] at h
    obtain ⟨ws, x⟩ := r
    cases x with
    | error e => cases h; exact ⟨_, this, rfl⟩
    | ok y => obtain ⟨ts, e⟩ := y; cases h; exact ⟨_, this, rfl⟩

end SimpleReader

/-- **C86** If `A`, read from a string, is accepted and none of its boxes extends to the end of the file, then reading `A` followed by
any `B`, from a file or a string, gives what reading `A` gave, followed by what reading `B` alone gives, be it boxes or an exception;
the boxes of `B` are the same, only further back. -/
theorem C86_concat (file : Bool) (env : Nat → Env) (map : BoxMap Kind) (A B : List Byte) (hl : (A ++ B).length < 2 ^ 63)
    (va : List BoxHeader) (ta : List Tree)
    (hA : ({ file := false, env := env, map := map, data := A } : SimpleReader).read = some ⟨va, .ok ta⟩)
    (hne : ∀ h ∈ va, h.extendToEof = false) (vb : List BoxHeader) (res : Except Err (List Tree))
    (hB : ({ file := file, env := fun o => env (o + A.length), map := map, data := B } : SimpleReader).read = some ⟨vb, res⟩) :
    ({ file := file, env := env, map := map, data := A ++ B } : SimpleReader).read
      = some ⟨va ++ vb.map (BoxHeader.moved A.length), Spec.followedBy A.length ta res⟩ := by
  have hla : A.length + B.length < 2 ^ 63 := by rw [← List.length_append]; exact hl
  obtain ⟨xa, ha, ea⟩ := read_loop (first env map A) (A.length + B.length) (Nat.le_add_right _ _) _ _ hA
  obtain ⟨xb, hb, eb⟩ := read_loop (second file env map A B) (A.length + B.length) (Nat.le_add_left _ _) _ _ hB
  cases xa with
  | error e => cases ea
  | ok xa =>
  obtain ⟨ta', e'⟩ := xa
  cases ea
  have h2 := loop_second file env map A B hl _ _ _ _ _ hb (Nat.le_refl _)
  rw [Nat.zero_add] at h2
  have h3 := loop_first file env map A B hl _ _ _ h2 _ _ _ _ _ _ ha hne (Nat.le_refl _) (Nat.zero_le _) (by omega)
  obtain ⟨r, hr, -⟩ := C28_terminates (both file env map A B) hl
  obtain ⟨vs, res'⟩ := r
  obtain ⟨x, hx, ex⟩ := read_loop (both file env map A B) (A.length + B.length)
    (by show (A ++ B).length ≤ _; rw [List.length_append]; exact Nat.le_refl _) _ _ hr
  have h4 := loop_fuel _ _ (A.length + B.length + 2) _ _ _ _ hx
  have hlen : (both file env map A B).data.length = A.length + B.length := List.length_append
  rw [hlen, h3] at h4
  show (both file env map A B).read = _
  rw [hr, ex]
  injection h4 with h4
  have hv : _ = vs := congrArg Run.visits h4
  have hx : _ = x := congrArg Run.res h4
  rw [← hv, ← hx, eb]
  cases xb with
  | error e => rfl
  | ok y => obtain ⟨tb, e⟩ := y; rfl

theorem Tree.movedList_append (k : Nat) : ∀ ts us : List Tree, movedList k (ts ++ us) = movedList k ts ++ movedList k us
  | [], us => rfl
  | t :: ts, us => by rw [List.cons_append, movedList, movedList_append k ts us, movedList, List.cons_append]

mutual
theorem Tree.moved_zero : ∀ t : Tree, t.moved 0 = t
  | .node b p ls => by
    rw [Tree.moved, Tree.movedList_zero ls]
    obtain ⟨t, d, h⟩ := b
    cases h <;> rfl
theorem Tree.movedList_zero : ∀ ts : List Tree, movedList 0 ts = ts
  | [] => rfl
  | t :: ts => by rw [Tree.movedList, Tree.moved_zero t, Tree.movedList_zero ts]
end

mutual
theorem Tree.moved_moved (j k : Nat) : ∀ t : Tree, (t.moved j).moved k = t.moved (j + k)
  | .node b p ls => by
    rw [Tree.moved, Tree.moved, Tree.moved, Tree.movedList_movedList j k ls]
    obtain ⟨t, d, h⟩ := b
    cases h with
    | none => rfl
    | some h => simp only [Box.moved, Option.map_some, BoxHeader.moved, Nat.add_assoc]
theorem Tree.movedList_movedList (j k : Nat) : ∀ ts : List Tree, movedList k (movedList j ts) = movedList (j + k) ts
  | [] => rfl
  | t :: ts => by rw [Tree.movedList, Tree.movedList, Tree.movedList, Tree.moved_moved j k t, Tree.movedList_movedList j k ts]
end

theorem Spec.allBoxes_moved (k : Nat) : ∀ (files : List (List Byte × List BoxHeader × List Tree)) (j : Nat),
    Tree.movedList k (Spec.allBoxes j files) = Spec.allBoxes (k + j) files
  | [], _ => rfl
  | (d, vs, ts) :: files, j => by
    rw [Spec.allBoxes, Spec.allBoxes, Tree.movedList_append, Tree.movedList_movedList, Spec.allBoxes_moved k files, Nat.add_comm j k,
      Nat.add_assoc]

namespace SimpleReader
variable (file : Bool) (env : Nat → Env) (map : BoxMap Kind) (A B : List Byte)

private theorem tiled_le : ∀ (ts : List Tree) (s e : Nat), Tree.TiledList ts s e → s ≤ e
  | [], s, e, h => by rw [Tree.TiledList] at h; omega
  | .node b p ls :: ts, s, e, h => by
    rw [Tree.TiledList] at h
    obtain ⟨m, h1, h2⟩ := h
    rw [Tree.Tiled] at h1
    obtain ⟨x, -, -, h1, -⟩ := h1
    have := tiled_le ts m e h2
    omega

private theorem tiled_header {t : Tree} {o e : Nat} (h : t.Tiled o e) : ∃ x, t.box.header = some x ∧ x.offset = o ∧ o + x.size = e := by
  cases t with
  | node b p ls =>
    rw [Tree.Tiled] at h
    obtain ⟨x, h1, h2, h3, -⟩ := h
    exact ⟨x, h1, h2, h3⟩

private theorem loop_head (sr : SimpleReader) (hl : sr.data.length < 2 ^ 63) (fuel : Nat) {path : List BoxType} {wave : Bool} {limit n : Nat}
    {done pos : Nat} {vs : List BoxHeader} {t : Tree} {ts : List Tree} {e : Nat}
    (h : readLoop (sr.readBox fuel path wave) limit n done pos = some ⟨vs, .ok (t :: ts, e)⟩) :
    ∃ x, t.box.header = some x ∧ x.offset = pos := by
  cases n with
  | zero => cases h
  | succ n =>
    rw [readLoop] at h
    split at h
    · cases hf : sr.readBox fuel path wave pos with
      | none => rw [hf] at h; cases h
      | some q =>
        rw [hf] at h
        obtain ⟨us, res⟩ := q
        cases res with
        | error e => cases h
        | ok y =>
          obtain ⟨size, t', e'⟩ := y
          obtain ⟨-, -, -, -, ⟨x, h1, -, h2⟩, -⟩ := (good sr hl fuel).1 _ _ _ _ hf
          dsimp only at h
          cases hq : readLoop (sr.readBox fuel path wave) limit n (u64 (done + size)) e' with
          | none => rw [hq] at h; cases h
          | some w =>
            rw [hq] at h
            obtain ⟨ws, res⟩ := w
            cases res with
            | error e => cases h
            | ok y => obtain ⟨ts', e''⟩ := y; cases h; exact ⟨x, h1, h2⟩
    · cases h

private theorem loop_split (hl : (A ++ B).length < 2 ^ 63) (fuel : Nat) (t2 : List Tree) (h2 : t2 ≠ []) :
    ∀ (t1 : List Tree) (n pos : Nat) (vs : List BoxHeader) (e : Nat),
    readLoop ((both file env map A B).readBox fuel [] false) (A.length + B.length) n pos pos = some ⟨vs, .ok (t1 ++ t2, e)⟩ →
    Tree.TiledList t1 pos A.length → Tree.TiledList (t1 ++ t2) pos (A.length + B.length) →
    (∀ h ∈ Tree.headersList t1, h.extendToEof = false) →
    ∃ v1 e1, readLoop ((first env map A).readBox fuel [] false) A.length n pos pos = some ⟨v1, .ok (t1, e1)⟩ := by
  have hl' := hl
  rw [List.length_append] at hl
  intro t1
  induction t1 with
  | nil =>
    intro n pos vs e h ht _ _
    rw [Tree.TiledList] at ht
    cases n with
    | zero => cases h
    | succ n => exact ⟨[], pos, by rw [readLoop, if_neg (by omega)]⟩
  | cons t t1 ih =>
    intro n pos vs e h ht ht2 hne
    rw [Tree.headersList] at hne
    cases n with
    | zero => cases h
    | succ n =>
      rw [readLoop] at h ⊢
      split at h
      · cases hf : (both file env map A B).readBox fuel [] false pos with
        | none => rw [hf] at h; cases h
        | some q =>
          rw [hf] at h
          obtain ⟨us, res⟩ := q
          cases res with
          | error e => cases h
          | ok y =>
            obtain ⟨size, t', e'⟩ := y
            obtain ⟨-, -, k8, kh, ⟨x, x1, x2, x3⟩, -⟩ := (good (both file env map A B) hl' fuel).1 _ _ _ _ hf
            dsimp only at h
            cases hq : readLoop ((both file env map A B).readBox fuel [] false) (A.length + B.length) n (u64 (pos + size)) e' with
            | none => rw [hq] at h; cases h
            | some w =>
              rw [hq] at h
              obtain ⟨ws, res⟩ := w
              cases res with
              | error e => cases h
              | ok y =>
                obtain ⟨ts', e''⟩ := y
                dsimp only at h
                injection h with h
                have hts : t' :: ts' = t :: (t1 ++ t2) := congrArg Prod.fst (Except.ok.inj (congrArg Run.res h))
                injection hts with ht' hts
                rw [hts] at hq
                rw [ht'] at hf x1 kh
                rw [Tree.TiledList] at ht
                obtain ⟨m, m1, m2⟩ := ht
                obtain ⟨y, y1, y2, y3⟩ := tiled_header m1
                rw [x1] at y1
                injection y1 with y1
                rw [List.cons_append, Tree.TiledList] at ht2
                obtain ⟨m', m1', m2'⟩ := ht2
                obtain ⟨z, z1, z2, z3⟩ := tiled_header m1'
                rw [x1] at z1
                injection z1 with z1
                have hm : m = pos + size := by rw [← y3, ← y1, x2]
                have hm' : m' = pos + size := by rw [← z3, ← z1, x2]
                have hA := tiled_le _ _ _ m2
                have he' : e' = pos + size := by
                  cases ht : t1 ++ t2 with
                  | nil => exact absurd (List.append_eq_nil_iff.mp ht).2 h2
                  | cons u us' =>
                    rw [ht] at hq m2'
                    obtain ⟨p, p1, p2⟩ := loop_head _ hl' fuel hq
                    rw [Tree.TiledList] at m2'
                    obtain ⟨_, n1, -⟩ := m2'
                    obtain ⟨p', p1', p2', -⟩ := tiled_header n1
                    rw [p1] at p1'
                    injection p1' with p1'
                    rw [← p2, p1', p2', hm']
                have e1 : u64 (pos + size) = pos + size := Nat.mod_eq_of_lt (by omega)
                rw [e1, he'] at hq
                have hA' : pos < A.length := by omega
                rw [if_pos hA', box_shorter file env map A B hl' fuel _ _ _ _ _ _ _ hf
                  (fun x hx => hne x (List.mem_append.mpr (.inl (kh ▸ hx)))) (by omega)]
                obtain ⟨v1, e1', h1⟩ := ih _ _ _ _ hq (hm ▸ m2) (hm' ▸ m2') (fun x hx => hne x (List.mem_append.mpr (.inr hx)))
                dsimp only
                rw [e1, he', h1]
                exact ⟨_, _, rfl⟩
      · cases h

end SimpleReader

/-- **C86** The converse: if a file is accepted, it can be cut between two of its top-level boxes, where no box before the cut extends to
the end of the file.  Both parts are accepted, and they hold the boxes before and behind the cut. -/
theorem C86_split (file : Bool) (env : Nat → Env) (map : BoxMap Kind) (A B : List Byte) (hl : (A ++ B).length < 2 ^ 63)
    (vs : List BoxHeader) (ta tb : List Tree) (hb : tb ≠ [])
    (hr : ({ file := file, env := env, map := map, data := A ++ B } : SimpleReader).read = some ⟨vs, .ok (ta ++ tb)⟩)
    (hcut : Tree.TiledList ta 0 A.length) (hne : ∀ h ∈ Tree.headersList ta, h.extendToEof = false) :
    ({ file := false, env := env, map := map, data := A } : SimpleReader).read = some ⟨Tree.headersList ta, .ok ta⟩ ∧
    ∃ vb tb', ({ file := file, env := fun o => env (o + A.length), map := map, data := B } : SimpleReader).read = some ⟨vb, .ok tb'⟩ ∧
      Tree.movedList A.length tb' = tb := by
  have hlen : (both file env map A B).data.length = A.length + B.length := List.length_append
  have hla : A.length + B.length < 2 ^ 63 := by rw [← List.length_append]; exact hl
  have hfirst : ∃ va, (first env map A).read = some ⟨va, .ok ta⟩ := by
    obtain ⟨x, h1, h2⟩ := read_loop (both file env map A B) (A.length + B.length) (by rw [hlen]; exact Nat.le_refl _) _ _ hr
    obtain ⟨ht, -⟩ := C30_tiling (both file env map A B) hl _ _ hr
    rw [hlen] at h1 ht
    cases x with
    | error e => cases h2
    | ok y =>
      obtain ⟨ts, e⟩ := y
      cases h2
      obtain ⟨v1, e1, h3⟩ := loop_split file env map A B hl _ tb hb ta _ _ _ _ h1 hcut ht hne
      obtain ⟨r, hr1, hr2, -⟩ := C28_terminates (first env map A) (by show A.length < _; omega)
      have hr2 := hr2 B.length
      rw [readWith, show (first env map A).data.length + 2 + B.length = A.length + B.length + 2 by
        show A.length + 2 + B.length = _; omega, show (first env map A).data.length = A.length from rfl, h3] at hr2
      exact ⟨v1, by rw [hr1, ← hr2]⟩
  obtain ⟨va, hfirst⟩ := hfirst
  obtain ⟨-, hva⟩ := C30_tiling (first env map A) (by show A.length < _; omega) _ _ hfirst
  rw [hva] at hfirst
  refine ⟨hfirst, ?_⟩
  obtain ⟨r, hr1, -⟩ := C28_terminates (second file env map A B) (by show B.length < _; omega)
  obtain ⟨vb, res⟩ := r
  have hc := C86_concat file env map A B hl _ ta hfirst hne vb res hr1
  rw [hr] at hc
  injection hc with hc
  have hres := congrArg Run.res hc
  cases res with
  | error e => cases hres
  | ok tb' =>
    have hres : ta ++ tb = ta ++ Tree.movedList A.length tb' := Except.ok.inj hres
    exact ⟨vb, tb', hr1, (List.append_cancel_left hres).symm⟩

/-- **C86** Any number of files, such as an initialisation segment and the media segments that follow it: if each is accepted, the
whole is accepted, and its boxes are those of the files, in order. -/
theorem C86_many (file : Bool) (map : BoxMap Kind) : ∀ (files : List (List Byte × List BoxHeader × List Tree)) (env : Nat → Env),
    (files.flatMap (·.1)).length < 2 ^ 63 → Spec.Accepted env map 0 files →
    ∃ vs, ({ file := file, env := env, map := map, data := files.flatMap (·.1) } : SimpleReader).read
      = some ⟨vs, .ok (Spec.allBoxes 0 files)⟩ := by
  intro files
  induction files with
  | nil => exact fun env _ _ => ⟨[], rfl⟩
  | cons f files ih =>
    obtain ⟨d, vs, ts⟩ := f
    intro env hl h
    obtain ⟨h1, h2, h3⟩ := h
    have hs : ∀ (fs : List (List Byte × List BoxHeader × List Tree)) (j : Nat), Spec.Accepted env map (d.length + j) fs →
        Spec.Accepted (fun o => env (o + d.length)) map j fs := by
      intro fs
      induction fs with
      | nil => exact fun _ _ => trivial
      | cons g fs ihf =>
        obtain ⟨d', vs', ts'⟩ := g
        intro j hj
        obtain ⟨g1, g2, g3⟩ := hj
        refine ⟨?_, g2, ihf _ (by rw [← Nat.add_assoc]; exact g3)⟩
        rw [← g1]
        congr 2
        funext o
        show env (o + j + d.length) = _
        congr 1
        omega
    rw [List.flatMap_cons] at hl ⊢
    obtain ⟨ws, hw⟩ := ih (fun o => env (o + d.length)) (by rw [List.length_append] at hl; omega)
      (hs files 0 (by rw [Nat.add_comm]; exact h3))
    refine ⟨vs ++ ws.map (BoxHeader.moved d.length), Eq.trans (C86_concat file env map d _ hl vs ts h1 h2 ws _ hw) ?_⟩
    rw [Spec.followedBy, Spec.allBoxes_moved, Spec.allBoxes, Tree.movedList_zero, Nat.add_comm]

end Mp4
