import Verif.Lemmas.Reader

/-! # C28-C30: `SimpleReader` on arbitrary input -/

namespace Mp4
open SimpleReader

theorem readWith_good (sr : SimpleReader) (hl : sr.data.length < 2 ^ 63) (fuel : Nat) (r : Run (List Tree))
    (hr : sr.readWith fuel = some r) :
    ∃ q, sr.LoopGood sr.data.length 0 0 q ∧ q.visits = r.visits ∧
      match r.res with
      | .error e => q.res = .error e
      | .ok ts => ∃ e, q.res = .ok (ts, e) := by
  rw [readWith] at hr
  split at hr
  · cases hr
  · rename_i vs e hk
    cases hr
    exact ⟨_, (sr.good hl fuel).2 _ _ _ _ _ _ _ (Nat.le_refl _) hk, rfl, rfl⟩
  · rename_i vs ts e hk
    cases hr
    exact ⟨_, (sr.good hl fuel).2 _ _ _ _ _ _ _ (Nat.le_refl _) hk, rfl, e, rfl⟩

theorem readWith_more (sr : SimpleReader) (fuel : Nat) (r : Run (List Tree)) (hr : sr.readWith fuel = some r) (k : Nat) :
    sr.readWith (fuel + k) = some r := by
  induction k with
  | zero => exact hr
  | succ k ih =>
    rw [readWith] at ih
    rw [← Nat.add_assoc, readWith]
    split at ih
    · cases ih
    · rename_i vs e hk
      rw [(sr.more (fuel + k)).2 _ _ _ _ _ _ _ hk]
      exact ih
    · rename_i vs ts e hk
      rw [(sr.more (fuel + k)).2 _ _ _ _ _ _ _ hk]
      exact ih

/-- **C28.** On every file (string or file stream, registered or custom box map, any contents of fresh objects)
`read` finishes, with a tree or an exception, whatever bound on the recursion is put on top of what it needs;
it reads at most one box header per 8 bytes of the file. -/
theorem C28_terminates (sr : SimpleReader) (hl : sr.data.length < 2 ^ 63) :
    ∃ r, sr.read = some r ∧ (∀ k, sr.readWith (sr.data.length + 2 + k) = some r) ∧
      8 * r.visits.length ≤ sr.data.length := by
  have h := (sr.enough hl (sr.data.length + 2)).2 (sr.data.length + 2) [] false sr.data.length 0 0 (Nat.le_refl _)
    (by omega) (by omega)
  have : ∃ r, sr.read = some r := by
    rw [SimpleReader.read, readWith]
    split
    · contradiction
    · exact ⟨_, rfl⟩
    · exact ⟨_, rfl⟩
  obtain ⟨r, hr⟩ := this
  refine ⟨r, hr, fun k => readWith_more sr _ r hr k, ?_⟩
  obtain ⟨q, ⟨-, g⟩, e1, e2⟩ := readWith_good sr hl _ r hr
  have ho : Spec.InOrder sr.data.length 0 r.visits := by
    rw [← e1]
    obtain ⟨vs, res⟩ := q
    cases res with
    | error e => exact g
    | ok x => exact g.1.inOrder
  rcases ho.count with h | h
  · rw [h]; simp
  · omega

/-- **C29.** Whenever `read` meets a box header whose declared size is smaller than the header or reaches behind the end of
the file, that is the last header it reads and it throws; hence if it returns normally all declared sizes are
possible. -/
theorem C29_impossible_sizes (sr : SimpleReader) (hl : sr.data.length < 2 ^ 63) (r : Run (List Tree))
    (hr : sr.read = some r) (h : BoxHeader) (hv : h ∈ r.visits)
    (hbad : h.size < h.headerSize ∨ sr.data.length < h.offset + h.size) :
    (∃ w, r.res = .error (.exc w)) ∧ r.visits.getLast? = some h := by
  obtain ⟨q, ⟨j, -⟩, e1, e2⟩ := readWith_good sr hl _ r hr
  have hn : ¬ Spec.Fits sr.data.length h := by unfold Spec.Fits; omega
  obtain ⟨vs, res⟩ := q
  obtain ⟨vs', res'⟩ := r
  cases e1
  cases res with
  | error e =>
    cases res' with
    | ok ts => obtain ⟨_, e2⟩ := e2; cases e2
    | error e' => cases e2; obtain ⟨⟨w, hw⟩, k⟩ := j h hv hn; exact ⟨⟨w, by rw [hw]⟩, k⟩
  | ok x => exact absurd (j h hv) hn

theorem visits_real (sr : SimpleReader) (hl : sr.data.length < 2 ^ 63) (fuel : Nat) :
    (∀ path wave pos r, sr.readBox fuel path wave pos = some r →
      ∀ h ∈ r.visits, read_box_header ⟨sr.data, h.offset⟩ = .ok h) := by
  have loop : ∀ fuel, (∀ path wave pos r, sr.readBox fuel path wave pos = some r →
        ∀ h ∈ r.visits, read_box_header ⟨sr.data, h.offset⟩ = .ok h) →
      ∀ n path wave limit done pos r, readLoop (sr.readBox fuel path wave) limit n done pos = some r →
        ∀ h ∈ r.visits, read_box_header ⟨sr.data, h.offset⟩ = .ok h := by
    intro fuel ih n path wave limit
    induction n with
    | zero => intro _ _ _ h; rw [readLoop] at h; cases h
    | succ n ihn =>
      intro done pos r hr
      rw [readLoop] at hr
      split at hr
      · split at hr
        · cases hr
        · rename_i hk; cases hr; exact ih _ _ _ _ hk
        · rename_i vs size t e hk
          split at hr
          · cases hr
          · rename_i hq
            cases hr
            intro h hm
            rcases List.mem_append.mp hm with hm | hm
            · exact ih _ _ _ _ hk h hm
            · exact ihn _ _ _ hq h hm
          · rename_i hq
            cases hr
            intro h hm
            rcases List.mem_append.mp hm with hm | hm
            · exact ih _ _ _ _ hk h hm
            · exact ihn _ _ _ hq h hm
      · cases hr
        intro h hm
        cases hm
  induction fuel with
  | zero => intro _ _ _ _ h; rw [readBox] at h; cases h
  | succ fuel ih =>
    have ihl := loop fuel ih
    intro path wave pos r hr
    rw [readBox_succ] at hr
    generalize hh : read_box_header ⟨sr.data, pos⟩ = x
    cases x with
    | error e => rw [sr.body_header_error hh] at hr; cases hr; intro h hm; cases hm
    | ok h =>
      have hreal : read_box_header ⟨sr.data, h.offset⟩ = .ok h := by
        rw [(read_box_header_ok sr.data pos h (by omega) hh).1]; exact hh
      generalize hc : sr.readContent wave h = y
      cases y with
      | error e =>
        rw [sr.body_content_error hh hc] at hr
        cases hr
        intro x hx
        cases List.mem_singleton.mp hx
        exact hreal
      | ok x =>
        obtain ⟨b, rbytes⟩ := x
        rw [sr.body_ok hh hc] at hr
        split at hr
        · cases hr
        · rename_i hk
          cases hr
          intro x hx
          rcases List.mem_cons.mp hx with rfl | hx
          · exact hreal
          · exact ihl _ _ _ _ _ _ _ hk x hx
        · rename_i hk
          cases hr
          intro x hx
          rcases List.mem_cons.mp hx with rfl | hx
          · exact hreal
          · exact ihl _ _ _ _ _ _ _ hk x hx

theorem loop_visits_real (sr : SimpleReader) (hl : sr.data.length < 2 ^ 63) (fuel n : Nat) (path : List BoxType) (wave : Bool)
    (limit done pos : Nat) (r : Run (List Tree × Nat))
    (hr : readLoop (sr.readBox fuel path wave) limit n done pos = some r) :
    ∀ h ∈ r.visits, read_box_header ⟨sr.data, h.offset⟩ = .ok h := by
  induction n generalizing done pos r with
  | zero => rw [readLoop] at hr; cases hr
  | succ n ihn =>
    rw [readLoop] at hr
    split at hr
    · split at hr
      · cases hr
      · rename_i hk; cases hr; exact visits_real sr hl fuel _ _ _ _ hk
      · rename_i vs size t e hk
        split at hr
        · cases hr
        · rename_i hq
          cases hr
          intro h hm
          rcases List.mem_append.mp hm with hm | hm
          · exact visits_real sr hl fuel _ _ _ _ hk h hm
          · exact ihn _ _ _ hq h hm
        · rename_i hq
          cases hr
          intro h hm
          rcases List.mem_append.mp hm with hm | hm
          · exact visits_real sr hl fuel _ _ _ _ hk h hm
          · exact ihn _ _ _ hq h hm
    · cases hr
      intro h hm
      cases hm

/-- **C29** The headers in question are those that stand in the file at their offsets, and the one at offset 0 is always
among them. -/
theorem C29_headers_of_the_file (sr : SimpleReader) (hl : sr.data.length < 2 ^ 63) (r : Run (List Tree))
    (hr : sr.read = some r) :
    (∀ h ∈ r.visits, read_box_header ⟨sr.data, h.offset⟩ = .ok h) ∧
    (∀ h, sr.data ≠ [] → read_box_header ⟨sr.data, 0⟩ = .ok h → r.visits.head? = some h) := by
  refine ⟨?_, ?_⟩
  · rw [SimpleReader.read, readWith] at hr
    split at hr
    · cases hr
    · rename_i hk; cases hr; exact loop_visits_real sr hl _ _ _ _ _ _ _ _ hk
    · rename_i hk; cases hr; exact loop_visits_real sr hl _ _ _ _ _ _ _ _ hk
  · intro h hne hh
    have key : ∀ q, sr.readBox (sr.data.length + 2) [] false 0 = some q → q.visits.head? = some h := by
      intro q hq
      rw [readBox_succ] at hq
      generalize hc : sr.readContent false h = y at hq
      cases y with
      | error e => rw [sr.body_content_error hh hc] at hq; cases hq; simp
      | ok x =>
        obtain ⟨b, rb⟩ := x
        rw [sr.body_ok hh hc] at hq
        split at hq
        · cases hq
        · cases hq; simp
        · cases hq; simp
    have hpos : sr.data.length > 0 := by
      cases hd : sr.data with
      | nil => exact absurd hd hne
      | cons a l => simp
    have happ : ∀ vs ws : List BoxHeader, vs.head? = some h → (vs ++ ws).head? = some h := by
      intro vs ws hv
      cases vs with
      | nil => cases hv
      | cons a vs => exact hv
    rw [SimpleReader.read, readWith, readLoop, if_pos hpos] at hr
    generalize hq : sr.readBox (sr.data.length + 2) [] false 0 = q at hr
    cases q with
    | none => cases hr
    | some q =>
      have hm := key q hq
      obtain ⟨vs, res⟩ := q
      cases res with
      | error e => cases hr; exact hm
      | ok x =>
        obtain ⟨size, t, e⟩ := x
        simp only at hr
        generalize readLoop (sr.readBox (sr.data.length + 2) [] false) sr.data.length (sr.data.length + 1)
          (u64 (0 + size)) e = w at hr
        cases w with
        | none => cases hr
        | some w =>
          obtain ⟨ws, res⟩ := w
          cases res with
          | error e => cases hr; exact happ _ _ hm
          | ok x => cases hr; exact happ _ _ hm

/-- **C30.** When `read` returns normally, the top-level boxes cover the file exactly, without gaps and overlap, and so do the
children of every box with the part of its byte range behind its own fields.  (A file with a child that
runs past the end of its parent is read on from a shifted position; the theorem shows that this never ends normally.) -/
theorem C30_tiling (sr : SimpleReader) (hl : sr.data.length < 2 ^ 63) (vs : List BoxHeader) (ts : List Tree)
    (hr : sr.read = some ⟨vs, .ok ts⟩) : Tree.TiledList ts 0 sr.data.length ∧ vs = Tree.headersList ts := by
  obtain ⟨q, ⟨j, g⟩, e1, e2⟩ := readWith_good sr hl _ _ hr
  obtain ⟨vs', res⟩ := q
  cases e1
  obtain ⟨e, e2⟩ := e2
  cases e2
  obtain ⟨-, g2, -, -, -, g6⟩ := g
  simp only [Nat.sub_zero, Nat.zero_add] at g6
  exact ⟨g6 (Nat.zero_le _) (.inr trivial), g2⟩

mutual
theorem Tree.Tiled.nested : ∀ (t : Tree) (o e : Nat), t.Tiled o e → t.Nested
  | .node b p ls, o, e, h => by
    obtain ⟨h, h1, h2, h3, h4, h5⟩ := h
    refine ⟨h, h1, ?_⟩
    rcases h5 with rfl | ⟨s, hs, hl⟩
    · trivial
    · exact Tree.TiledList.nested ls s e _ _ (by omega) (by omega) hl
theorem Tree.TiledList.nested : ∀ (ts : List Tree) (s e s0 e0 : Nat), s0 ≤ s → e ≤ e0 → Tree.TiledList ts s e →
    Tree.NestedList s0 e0 ts
  | [], _, _, _, _, _, _, _ => trivial
  | t :: ts, s, e, s0, e0, h0, h1, h => by
    obtain ⟨m, k1, k2⟩ := h
    have hle : ∀ (ts : List Tree) (m e : Nat), Tree.TiledList ts m e → m ≤ e := by
      intro ts
      induction ts with
      | nil => intro m e h; exact Nat.le_of_eq h
      | cons t ts ih =>
        intro m e h
        obtain ⟨m', q1, q2⟩ := h
        have := ih _ _ q2
        obtain ⟨b, p, ls⟩ := t
        obtain ⟨h, -, q3, q4, -⟩ := q1
        omega
    have := hle _ _ _ k2
    refine ⟨?_, Tree.Tiled.nested t s m k1, Tree.TiledList.nested ts m e s0 e0 ?_ h1 k2⟩
    · obtain ⟨b, p, ls⟩ := t
      obtain ⟨h, q1, q2, q3, -⟩ := k1
      exact ⟨h, q1, by omega, by omega⟩
    · obtain ⟨b, p, ls⟩ := t
      obtain ⟨h, q1, q2, q3, -⟩ := k1
      omega
end

/-- **C30.** When `read` returns normally, every box lies inside its parent, behind the parent's header, and the top-level boxes
inside the file. -/
theorem C30_nested (sr : SimpleReader) (hl : sr.data.length < 2 ^ 63) (vs : List BoxHeader) (ts : List Tree)
    (hr : sr.read = some ⟨vs, .ok ts⟩) : Tree.NestedList 0 sr.data.length ts :=
  Tree.TiledList.nested ts 0 sr.data.length 0 _ (Nat.le_refl _) (Nat.le_refl _) (C30_tiling sr hl vs ts hr).1

/-- **C29.** In particular every file that starts with a box whose size field is smaller than a header, or larger than the
file, is rejected at once. -/
theorem C29_first_box (sr : SimpleReader) (hl : sr.data.length < 2 ^ 63) (size : Nat) (t : BoxType) (rest : List Byte)
    (hd : sr.data = beBytes 4 size ++ BoxType.bytes t ++ rest) (h2 : 2 ≤ size) (h32 : size < 2 ^ 32)
    (hbad : size < 8 ∨ sr.data.length < size) :
    ∃ w, sr.read = some ⟨[⟨0, size, 8, t, false⟩], .error (.exc w)⟩ := by
  obtain ⟨⟨vs, res⟩, hr, -⟩ := C28_terminates sr hl
  have hh := (read_box_header_spec sr.data 0 t (by omega)).1 size rest (by rw [List.drop_zero]; exact hd) h2 h32
  have hne : sr.data ≠ [] := by
    intro h
    rw [h] at hd
    exact absurd hd (by simp [beBytes])
  have hv := (C29_headers_of_the_file sr hl _ hr).2 _ hne hh
  cases vs with
  | nil => cases hv
  | cons v vs =>
    cases hv
    have key := C29_impossible_sizes sr hl _ hr ⟨0, size, 8, t, false⟩ (by simp) (by simpa using hbad)
    obtain ⟨⟨w, hw⟩, hlast⟩ := key
    have hi : Spec.InOrder sr.data.length 0 (⟨0, size, 8, t, false⟩ :: vs) := by
      obtain ⟨q, ⟨j, g⟩, e1, e2⟩ := readWith_good sr hl _ _ hr
      obtain ⟨vs', res'⟩ := q
      cases e1
      cases res' with
      | error e => exact g
      | ok x => simp only at hw; subst hw; simp only at e2; cases e2
    have : vs = [] := by
      cases vs with
      | nil => rfl
      | cons u vs =>
        exfalso
        have hm : (⟨0, size, 8, t, false⟩ : BoxHeader) ∈ u :: vs := by
          have := List.mem_of_getLast? hlast
          rw [List.getLast?_cons_cons] at hlast
          exact List.mem_of_getLast? hlast
        have key : ∀ (l : List BoxHeader) p, Spec.InOrder sr.data.length p l → ∀ h ∈ l, p ≤ h.offset := by
          intro l
          induction l with
          | nil => intro _ _ h hm; cases hm
          | cons a l ih =>
            intro p hi h hm
            rcases List.mem_cons.mp hm with rfl | hm
            · exact hi.1
            · have := ih _ hi.2.2.2 h hm
              have := hi.1
              omega
        have := key _ _ hi.2.2.2 _ hm
        simp at this
    subst this
    simp only at hw
    subst hw
    exact ⟨w, hr⟩

example (env : Nat → Env) (file : Bool) :
    ∃ w, ({ file, env, data := [0, 0, 0, 5, 0x6d, 0x6f, 0x6f, 0x76] } : SimpleReader).read
      = some ⟨[⟨0, 5, 8, ⟨0x6d, 0x6f, 0x6f, 0x76⟩, false⟩], .error (.exc w)⟩ :=
  C29_first_box _ (by show (8 : Nat) < _; decide) 5 ⟨0x6d, 0x6f, 0x6f, 0x76⟩ [] rfl (by decide) (by decide) (.inl (by decide))

end Mp4
