import Verif.Lemmas.MemoryBuild
import Verif.Lemmas.FaultsFaststart

/-! # The objects of a writer -/

namespace Mp4
open Mem Mem.ATree

namespace Tree
mutual
theorem writeF_erase (dev : Device) : ∀ (t : Tree) (s : FStream), (t.writeF dev s).2.1.erase = t.erase
  | .node b p ls, s => by
    have hb : ∀ b : Box, ({ (b.writeF dev s).2.1 with header := none } : Box) = { b with header := none } := by
      intro b
      unfold Box.writeF
      split
      · rfl
      · split <;> rfl
    rw [Mem.writeF_node]
    split
    · show erase (.node _ p ls) = _
      rw [erase, erase, hb]
    · show erase (.node _ p _) = _
      rw [erase, erase, hb, writeListF_erase dev ls]
theorem writeListF_erase (dev : Device) : ∀ (ts : List Tree) (s : FStream), eraseList (writeListF dev ts s).2.1 = eraseList ts
  | [], s => by rw [writeListF]
  | t :: ts, s => by
    rw [Mem.writeListF_cons]
    split
    · show eraseList (_ :: ts) = _
      rw [eraseList, eraseList, writeF_erase dev t]
    · show eraseList (_ :: _) = _
      rw [eraseList, eraseList, writeF_erase dev t, writeListF_erase dev ts]
end
end Tree

namespace Mem

mutual
theorem holds_depth {s : State} : ∀ (t : ATree) (u : Tree), Holds s t u → u.depth = depth t
  | .node a b h ls, .node bx p us, hh => by rw [Tree.depth, depth, holds_depths ls us (holds_node.mp hh).2.2]
theorem holds_depths {s : State} : ∀ (ts : List ATree) (us : List Tree), HoldsList s ts us → Tree.depthList us = depthList ts
  | [], [], _ => rfl
  | t :: ts, u :: us, hh => by rw [Tree.depthList, depthList, holds_depth t u hh.1, holds_depths ts us hh.2]
end

/-- A `moov` box with `mvhd` first. -/
def IsMoov : Tree → Prop
  | .node bx _ (.node m _ _ :: _) => bx.type = fourcc "moov" ∧ ∃ v, m.data = .mvhd v
  | _ => False

theorem IsMoov.congr : ∀ {u u' : Tree}, u'.erase = u.erase → IsMoov u → IsMoov u'
  | .node bx p [], _, _, h => h.elim
  | .node bx p (.node m mp mls :: us), .node bx' p' [], he, h => by
    rw [Tree.erase, Tree.erase, Tree.eraseList, Tree.eraseList] at he
    injection he with h1 h2 h3
    cases h3
  | .node bx p (.node m mp mls :: us), .node bx' p' (.node m' mp' mls' :: us'), he, h => by
    rw [Tree.erase, Tree.erase, Tree.eraseList, Tree.eraseList, Tree.erase, Tree.erase] at he
    injection he with h1 h2 h3
    injection h3 with h3 h4
    injection h3 with h3 h5 h6
    injection h1 with h1 h7
    injection h3 with h3 h8
    obtain ⟨k1, v, k2⟩ := h
    exact ⟨by rw [h1, k1], v, by rw [h8, k2]⟩

/-- The second object of the first leaf: the `Mvhd`. -/
def mvhdAddr : ATree → Option Nat
  | .node _ _ _ (.node _ b _ _ :: _) => some b
  | _ => none

theorem mvhdAddr_grown : ∀ {t t' : ATree}, Grown t t' → mvhdAddr t' = mvhdAddr t
  | .node a b h [], .node a' b' h' [], _ => rfl
  | .node a b h (.node a1 b1 h1 l1 :: ls), .node a' b' h' (.node a2 b2 h2 l2 :: ls'), hg => by
    obtain ⟨-, -, -, ⟨-, h, -⟩, -⟩ := hg
    show some b2 = some b1
    rw [h]
  | .node a b h [], .node a' b' h' (_ :: _), hg => hg.2.2.2.elim
  | .node a b h (_ :: _), .node a' b' h' [], hg => hg.2.2.2.elim

/-- A writer has the tree `u` at the objects `t`; the other objects are `st`. -/
structure Own (s : State) (t : ATree) (u : Tree) (st : List Nat) : Prop where
  holds : Holds s t u
  fine : Fine s (addrs t)
  live : ∀ x, s.cell x ≠ none → x ∈ addrs t ∨ x ∈ st
  moov : s.moov = some (root t)
  mvhd : s.mvhd = mvhdAddr t
  is : IsMoov u
  depth : depth t ≤ 8

/-- The tree of a writer behind its creation or before it. -/
def Owns (s : State) (st : List Nat) : Option Tree → Prop
  | none => (∀ x, s.cell x ≠ none → x ∈ st) ∧ s.moov = none ∧ s.mvhd = none
  | some u => ∃ t, Own s t u st

/-- Other objects are created. -/
theorem Own.beside {s s' : State} {t : ATree} {u : Tree} {st l : List Nat} (h : Own s t u st) (hl : Local s s' [] l) :
    Own s' t u (st ++ l) := by
  refine ⟨Holds.frame _ _ h.holds fun x hx => hl.keeps (by simp) (h.fine.2 x hx), h.fine.mono hl.le, ?_, by rw [hl.moov, h.moov],
    by rw [hl.mvhd, h.mvhd], h.is, h.depth⟩
  intro x hx
  by_cases hm : x ∈ l
  · exact .inr (List.mem_append_right _ hm)
  · rw [hl.out x hm] at hx
    rcases h.live x hx with h | h
    · exact .inl h
    · exact .inr (List.mem_append_left _ h)

/-- Other objects are created and deleted. -/
theorem Own.cleared {s s' : State} {t : ATree} {u : Tree} {st l : List Nat} (h : Own s t u st) (hl : Local s s' [] l) :
    Own (s'.clear l) t u st := by
  have hn : ∀ x ∈ addrs t, x ∉ l := fun x hx => hl.apart (by simp) (h.fine.2 x hx)
  refine ⟨Holds.frame _ _ h.holds fun x hx => by rw [clear_other (hn x hx)]; exact hl.keeps (by simp) (h.fine.2 x hx), h.fine.mono hl.le, ?_,
    by show s'.moov = _; rw [hl.moov, h.moov], by show s'.mvhd = _; rw [hl.mvhd, h.mvhd], h.is, h.depth⟩
  intro x hx
  by_cases hm : x ∈ l
  · exact absurd (by unfold State.clear; dsimp only; rw [if_pos hm]) hx
  · rw [clear_other hm, hl.out x hm] at hx
    exact h.live x hx

theorem Owns.beside {s s' : State} {o : Option Tree} {st l : List Nat} (h : Owns s st o) (hl : Local s s' [] l) : Owns s' (st ++ l) o := by
  cases o with
  | none =>
    refine ⟨fun x hx => ?_, by rw [hl.moov, h.2.1], by rw [hl.mvhd, h.2.2]⟩
    by_cases hm : x ∈ l
    · exact List.mem_append_right _ hm
    · rw [hl.out x hm] at hx
      exact List.mem_append_left _ (h.1 x hx)
  | some u => obtain ⟨t, h⟩ := h; exact ⟨t, h.beside hl⟩

theorem Owns.cleared {s s' : State} {o : Option Tree} {st l : List Nat} (h : Owns s st o) (hl : Local s s' [] l) : Owns (s'.clear l) st o := by
  cases o with
  | none =>
    refine ⟨fun x hx => ?_, by show s'.moov = _; rw [hl.moov, h.2.1], by show s'.mvhd = _; rw [hl.mvhd, h.2.2]⟩
    by_cases hm : x ∈ l
    · exact absurd (by unfold State.clear; dsimp only; rw [if_pos hm]) hx
    · rw [clear_other hm, hl.out x hm] at hx
      exact h.1 x hx
  | some u => obtain ⟨t, h⟩ := h; exact ⟨t, h.cleared hl⟩

/-- `adjustOffsetAndSize` on the tree of the writer. -/
theorem Own.adjust {s : State} {t : ATree} {u : Tree} {st : List Nat} (h : Own s t u st) (fuel o : Nat) (hf : 16 ≤ fuel) :
    ∃ s' t' u', adjustM fuel (root t) o s = some (.ok u.wsize, s') ∧ adjustTree u o = .ok u' ∧ Own s' t' u' st ∧ root t' = root t := by
  obtain ⟨u', h1, h2, h3⟩ := Tree.adjustTree_ends u o
  have hd := h.depth
  obtain ⟨s', t', a1, a2, a3, a4, a5⟩ := adjust_sim fuel t u s o _ u' h.holds h.fine (h3 fuel (by rw [holds_depth t u h.holds]; omega))
  refine ⟨s', t', u', a1, h1, ⟨a2, a4, ?_, ?_, ?_, h.is.congr h2, by rw [Grown.depth _ _ a3]; exact hd⟩, Grown.root a3⟩
  · intro x hx
    by_cases hm : x ∈ addrs t'
    · exact .inl hm
    · rw [a5.out x hm] at hx
      rcases h.live x hx with h | h
      · exact absurd (a5.sub x h) hm
      · exact .inr h
  · rw [a5.moov, h.moov, Grown.root a3]
  · rw [a5.mvhd, h.mvhd, mvhdAddr_grown a3]

/-- `write` on the tree of the writer. -/
theorem Own.write {s : State} {t : ATree} {u : Tree} {st : List Nat} (h : Own s t u st) (dev : Device) (fuel : Nat) (hf : 8 ≤ fuel)
    (str : FStream) : ∃ s' u', Own s' t u' st ∧ match writeTreeF dev u str with
      | .error e => writeM dev fuel (root t) str s = some (.error e, s')
      | .ok (v, str') => v = u' ∧ writeM dev fuel (root t) str s = some (.ok str', s') := by
  have hd := h.depth
  obtain ⟨s', a1, a2, a3, a4⟩ := write_sim dev t u s fuel str h.holds h.fine (by omega)
  refine ⟨s', (u.writeF dev str).2.1, ⟨a2, h.fine.mono (Nat.le_of_eq a4.symm), ?_, by rw [a3.moov, h.moov], by rw [a3.mvhd, h.mvhd],
    h.is.congr (Tree.writeF_erase dev u str), hd⟩, ?_⟩
  · intro x hx
    by_cases hm : x ∈ addrs t
    · exact .inl hm
    · rw [a3.out x hm] at hx
      exact h.live x hx
  · unfold writeTreeF
    rcases hw : u.writeF dev str with ⟨r, v, str'⟩
    rw [hw] at a1
    cases r with
    | error e => exact a1
    | ok x => exact ⟨rfl, a1⟩

/-- A tree built below that of the writer. -/
def appendMk (m : Mk) : Tree → Tree
  | .node b p ls => .node b p (ls ++ [m p])

theorem Own.append {s : State} {t : ATree} {u : Tree} {st : List Nat} (h : Own s t u st) (m : Mk) (hm : Mk.Good m 7) :
    ∃ s' t' a, buildM (some (root t)) (m []) s = some (.ok a, s') ∧ Own s' t' (appendMk m u) st ∧ root t' = root t := by
  obtain ⟨a, b, hd, ls⟩ := t
  obtain ⟨bx, p, us⟩ := u
  have hown := h
  obtain ⟨h1, h2, h3⟩ := holds_node.mp h.holds
  obtain ⟨⟨w, h4⟩, h5⟩ := h2
  have hf := h.fine
  rw [addrs_node] at hf
  have hbx : bx.type = fourcc "moov" := by
    have := h.is
    cases us with
    | nil => exact this.elim
    | cons v us => obtain ⟨m, mp, mls⟩ := v; exact this.1
  have hwf : WfParent s (some a) p false := by
    refine ⟨_, _, h1, h4, rfl, ?_, hf.2 a (by simp), hf.2 b (by simp)⟩
    have e : fourcc "moov" ≠ fourcc "wave" := by decide +kernel
    dsimp only
    rw [hbx, decide_eq_false e]
  obtain ⟨s', c, a1, a2, a3, -⟩ := build_sim (m []) s (some a) p false hwf
  obtain ⟨g1, g2⟩ := hm [] p
  rw [g1] at a2
  have hle := a2.le
  have hnew : ∀ x, x ∈ addrs c ↔ s.next ≤ x ∧ x < s'.next := by
    intro x
    have := a2.new x
    rwa [addrsList, addrsList, List.append_nil] at this
  have hkeep : ∀ x, x ∈ b :: hd.toList ++ addrsList ls → s'.cell x = s.cell x := by
    intro x hx
    have hx2 : x ∈ a :: b :: hd.toList ++ addrsList ls := List.mem_cons_of_mem _ hx
    refine a2.keeps (hf.2 x hx2) ?_
    intro e
    cases e
    have := hf.1
    rw [List.cons_append, List.nodup_cons] at this
    exact this.1 hx
  have e1 : s'.cell a = some (.info ⟨b, p, (ls ++ [c]).map root⟩) := by
    rw [a2.old a (hf.2 a (by simp)), attached_self h1, List.map_append]
  have haddrs : addrs (.node a b hd (ls ++ [c])) = (a :: b :: hd.toList ++ addrsList ls) ++ addrs c := by
    rw [addrs_node, addrsList_append, addrsList, addrsList, List.append_nil, List.append_assoc]
  refine ⟨s', .node a b hd (ls ++ [c]), _, a1, ⟨?_, ?_, ?_, ?_, ?_, ?_, ?_⟩, rfl⟩
  · refine holds_node.mpr ⟨e1, ⟨⟨w, ?_⟩, holdsHeader_frame h5 fun x hx => hkeep x ?_⟩, HoldsList_append (HoldsList.frame _ _ h3 fun x hx => hkeep x ?_) a2.holds⟩
    · rw [hkeep b (by simp), h4]
    · simp [hx]
    · exact List.mem_append_right _ hx
  · rw [haddrs]
    have hc : (addrs c).Nodup := by
      have := a2.nodup
      rwa [addrsList, addrsList, List.append_nil] at this
    refine (hf.mono hle).append ⟨hc, fun x hx => ((hnew x).mp hx).2⟩ fun x hx hx2 => ?_
    have := (hnew x).mp hx2
    have := hf.2 x hx
    omega
  · intro x hx
    rw [haddrs]
    by_cases hc : x ∈ addrs c
    · exact .inl (List.mem_append_right _ hc)
    · have hne : s.cell x ≠ none ∨ x = a := by
        by_cases hxa : x = a
        · exact .inr hxa
        · refine .inl ?_
          by_cases hlt : x < s.next
          · rwa [a2.keeps hlt (by intro e; cases e; exact hxa rfl)] at hx
          · by_cases hlt2 : x < s'.next
            · exact absurd ((hnew x).mpr ⟨by omega, hlt2⟩) hc
            · rwa [a2.above x (by omega)] at hx
      rcases hne with hne | rfl
      · rcases hown.live x hne with h | h
        · rw [addrs_node] at h
          exact .inl (List.mem_append_left _ h)
        · exact .inr h
      · exact .inl (by simp)
  · rw [a2.moov, hown.moov]; rfl
  · rw [a2.mvhd, hown.mvhd]
    cases ls with
    | nil =>
      cases us with
      | nil => exact h.is.elim
      | cons v us => exact h3.elim
    | cons l ls => obtain ⟨l1, l2, l3, l4⟩ := l; rfl
  · have := h.is
    cases us with
    | nil => exact this.elim
    | cons v us => obtain ⟨m, mp, mls⟩ := v; exact this
  · have := hown.depth
    rw [ATree.depth] at this ⊢
    have hda : ∀ ls : List ATree, depthList (ls ++ [c]) = max (depthList ls) (ATree.depth c) := by
      intro ls
      induction ls with
      | nil =>
        have e0 : depthList [] = 0 := by rw [depthList]
        have e1 : depthList [c] = max (ATree.depth c) (depthList []) := ATree.depthList.eq_2 c []
        rw [List.nil_append, e1, e0]; omega
      | cons l ls ih => rw [List.cons_append, depthList, depthList, ih]; omega
    rw [hda]
    omega

/-- `m_mvhd_box->setNextTrackID`. -/
theorem Own.setNextTrackID {s : State} {t : ATree} {u : Tree} {st : List Nat} (h : Own s t u st) (id : BitVec 32) :
    ∃ s', setNextTrackIDM id s = some (.ok (), s') ∧ Own s' t (Mp4.setNextTrackID id u) st := by
  obtain ⟨a, b, hd, ls⟩ := t
  obtain ⟨bx, p, us⟩ := u
  have hown := h
  obtain ⟨h1, h2, h3⟩ := holds_node.mp h.holds
  have his := h.is
  cases us with
  | nil => exact his.elim
  | cons v us =>
    obtain ⟨m, mp, mls⟩ := v
    cases ls with
    | nil => exact h3.elim
    | cons l ls =>
      obtain ⟨l1, l2, l3, l4⟩ := l
      obtain ⟨h31, h32⟩ := h3
      obtain ⟨k1, ⟨⟨w, k2⟩, k3⟩, k4⟩ := holds_node.mp h31
      obtain ⟨hty, v, hv⟩ := his
      have hfine := h.fine
      rw [addrs_node, addrsList, addrs_node] at hfine
      have hnd := hfine.1
      have hnot : l2 ∉ a :: b :: hd.toList ∧ l2 ≠ l1 ∧ l2 ∉ l3.toList ∧ l2 ∉ addrsList l4 ∧ l2 ∉ addrsList ls := by
        simp only [List.cons_append, List.nodup_cons, List.nodup_append, List.mem_cons, List.mem_append, not_or] at hnd ⊢
        grind
      obtain ⟨n1, n2, n3, n4, n5⟩ := hnot
      simp only [List.mem_cons, not_or] at n1
      have hm : s.mvhd = some l2 := h.mvhd
      have hrun : setNextTrackIDM id s = some (.ok (), s.set l2 (some (.box ⟨m.type, w, some (.mvhd { v with next_track_id := id }), l3⟩))) := by
        unfold setNextTrackIDM
        rw [bind_ok (show getMvhd s = some (.ok s.mvhd, s) from rfl), hm]
        dsimp only
        rw [bind_ok (box_ok k2)]
        dsimp only
        rw [hv]
        dsimp only
        rw [setBox_ok k2]
      have kp : ∀ x, x ≠ l2 → (s.set l2 (some (.box ⟨m.type, w, some (.mvhd { v with next_track_id := id }), l3⟩))).cell x = s.cell x :=
        fun x hx => set_other _ _ hx
      refine ⟨_, hrun, ⟨?_, h.fine, ?_, h.moov, h.mvhd, ?_, h.depth⟩⟩
      · show Holds _ _ (.node bx p (.node { m with data := match m.data with
          | .mvhd v => .mvhd { v with next_track_id := id }
          | d => d } mp mls :: us))
        rw [hv]
        refine holds_node.mpr ⟨?_, h2.frame fun x hx => kp x ?_, holds_node.mpr ⟨?_, ⟨⟨w, set_self _ _ _⟩, ?_⟩, ?_⟩, ?_⟩
        · rw [kp a (fun e => n1.1 e.symm), h1]
        · intro e
          subst e
          rcases List.mem_cons.mp hx with hx | hx
          · exact n1.2.1 hx
          · exact n1.2.2 hx
        · rw [kp l1 (fun e => n2 e.symm), k1]
        · exact holdsHeader_frame k3 fun x hx => kp x (by intro e; subst e; exact n3 (by simp [hx]))
        · exact HoldsList.frame _ _ k4 fun x hx => kp x (by intro e; subst e; exact n4 hx)
        · exact HoldsList.frame _ _ h32 fun x hx => kp x (by intro e; subst e; exact n5 hx)
      · intro x hx
        by_cases e : x = l2
        · subst e
          refine .inl ?_
          rw [addrs_node, addrsList, addrs_node]
          simp
        · rw [kp x e] at hx
          exact h.live x hx
      · exact ⟨hty, _, by rw [hv]⟩

/-- The destructor. -/
theorem Owns.destroyed {s : State} {st : List Nat} {o : Option Tree} (h : Owns s st o) (fuel : Nat) (hf : 8 ≤ fuel) :
    ∃ s', destroyWriterM fuel s = some (.ok (), s') ∧ ∀ x, s'.cell x ≠ none → x ∈ st := by
  unfold destroyWriterM
  rw [bind_ok (show getMoov s = some (.ok s.moov, s) from rfl)]
  cases o with
  | none => rw [h.2.1]; exact ⟨s, rfl, h.1⟩
  | some u =>
    obtain ⟨t, h⟩ := h
    have hd := h.depth
    rw [h.moov]
    dsimp only
    refine ⟨_, deleteInfo_ok t s fuel (Holds.rep _ _ h.holds) h.fine.1 (by omega), fun x hx => ?_⟩
    by_cases hm : x ∈ addrs t
    · exact absurd (by unfold State.clear; dsimp only; rw [if_pos hm]) hx
    · rw [clear_other hm] at hx
      rcases h.live x hx with h | h
      · exact absurd h hm
      · exact h

end Mem
end Mp4
