import Verif.Model.MemoryWriter
import Verif.Lemmas.MemoryReader
import Verif.Lemmas.Adjust

/-! # Trees in memory: sizes, writing, creation -/

namespace Mp4
open Mem Mem.ATree
namespace Mem

/-- The objects at `l` changed, and became those at `l'`; nothing else happened. -/
structure Local (s s' : State) (l l' : List Nat) : Prop where
  le : s.next ≤ s'.next
  sub : ∀ x ∈ l, x ∈ l'
  mem : ∀ x ∈ l', x ∈ l ∨ s.next ≤ x ∧ x < s'.next
  out : ∀ x, x ∉ l' → s'.cell x = s.cell x
  moov : s'.moov = s.moov
  mvhd : s'.mvhd = s.mvhd

theorem Local.refl (s : State) (l : List Nat) : Local s s l l :=
  ⟨Nat.le_refl _, fun _ h => h, fun _ h => .inl h, fun _ _ => rfl, rfl, rfl⟩

theorem Local.trans {s s1 s2 : State} {l l1 l2 : List Nat} (h1 : Local s s1 l l1) (h2 : Local s1 s2 l1 l2) : Local s s2 l l2 := by
  have e1 := h1.le
  have e2 := h2.le
  refine ⟨by omega, fun x h => h2.sub x (h1.sub x h), fun x h => ?_, fun x h => ?_, by rw [h2.moov, h1.moov], by rw [h2.mvhd, h1.mvhd]⟩
  · rcases h2.mem x h with h | h
    · rcases h1.mem x h with h | h
      · exact .inl h
      · exact .inr ⟨h.1, by omega⟩
    · exact .inr ⟨by omega, h.2⟩
  · rw [h2.out x h, h1.out x (fun h' => h (h2.sub x h'))]

/-- Seen within more objects. -/
theorem Local.widen {s s' : State} {l l' : List Nat} (h : Local s s' l l') {L L' c : List Nat} (h1 : ∀ x, x ∈ L ↔ x ∈ l ∨ x ∈ c)
    (h2 : ∀ x, x ∈ L' ↔ x ∈ l' ∨ x ∈ c) : Local s s' L L' := by
  refine ⟨h.le, fun x hx => ?_, fun x hx => ?_, fun x hx => h.out x fun h' => hx ((h2 x).mpr (.inl h')), h.moov, h.mvhd⟩
  · rcases (h1 x).mp hx with hx | hx
    · exact (h2 x).mpr (.inl (h.sub x hx))
    · exact (h2 x).mpr (.inr hx)
  · rcases (h2 x).mp hx with hx | hx
    · rcases h.mem x hx with hx | hx
      · exact .inl ((h1 x).mpr (.inl hx))
      · exact .inr hx
    · exact .inl ((h1 x).mpr (.inr hx))

/-- Different objects, all of them created. -/
def Fine (s : State) (l : List Nat) : Prop := l.Nodup ∧ ∀ x ∈ l, x < s.next

/-- Other objects are not among the new ones. -/
theorem Local.apart {s s' : State} {l l' : List Nat} (h : Local s s' l l') {x : Nat} (hx : x ∉ l) (hn : x < s.next) : x ∉ l' := by
  intro hm
  rcases h.mem x hm with h1 | h1
  · exact hx h1
  · omega

theorem Local.keeps {s s' : State} {l l' : List Nat} (h : Local s s' l l') {x : Nat} (hx : x ∉ l) (hn : x < s.next) :
    s'.cell x = s.cell x := h.out x (h.apart hx hn)

theorem Fine.left {s : State} {l r : List Nat} (h : Fine s (l ++ r)) : Fine s l :=
  ⟨(List.nodup_append.mp h.1).1, fun x hx => h.2 x (List.mem_append_left _ hx)⟩
theorem Fine.right {s : State} {l r : List Nat} (h : Fine s (l ++ r)) : Fine s r :=
  ⟨(List.nodup_append.mp h.1).2.1, fun x hx => h.2 x (List.mem_append_right _ hx)⟩
theorem Fine.disj {s : State} {l r : List Nat} (h : Fine s (l ++ r)) {x : Nat} (h1 : x ∈ l) (h2 : x ∈ r) : False :=
  (List.nodup_append.mp h.1).2.2 x h1 x h2 rfl
theorem Fine.append {s : State} {l r : List Nat} (hl : Fine s l) (hr : Fine s r) (hd : ∀ x ∈ l, x ∉ r) : Fine s (l ++ r) := by
  refine ⟨List.nodup_append.mpr ⟨hl.1, hr.1, fun x hx y hy e => hd x hx (e ▸ hy)⟩, fun x hx => ?_⟩
  rcases List.mem_append.mp hx with h | h
  · exact hl.2 x h
  · exact hr.2 x h
theorem Fine.mono {s s' : State} {l : List Nat} (h : Fine s l) (hle : s.next ≤ s'.next) : Fine s' l :=
  ⟨h.1, fun x hx => Nat.lt_of_lt_of_le (h.2 x hx) hle⟩

theorem Local.fineL {s s' : State} {l l' r : List Nat} (h : Local s s' l l') (hf : Fine s (l ++ r)) (hf' : Fine s' l') :
    Fine s' (l' ++ r) :=
  hf'.append (hf.right.mono h.le) fun x h1 h2 => h.apart (fun h3 => hf.disj h3 h2) (hf.right.2 x h2) h1
theorem Local.fineR {s s' : State} {l l' r : List Nat} (h : Local s s' l l') (hf : Fine s (r ++ l)) (hf' : Fine s' l') :
    Fine s' (r ++ l') :=
  (hf.left.mono h.le).append hf' fun x h1 h2 => h.apart (fun h3 => hf.disj h1 h3) (hf.left.2 x h1) h2

/-! ### boxes -/

/-- A box and its header in memory. -/
def BoxHolds (s : State) (b : Nat) (h : Option Nat) (bx : Box) : Prop :=
  (∃ w, s.cell b = some (.box ⟨bx.type, w, some bx.data, h⟩)) ∧ HoldsHeader s h bx.header

theorem holdsHeader_frame {s s' : State} {h : Option Nat} {hd : Option BoxHeader} (hh : HoldsHeader s h hd)
    (hf : ∀ x, h = some x → s'.cell x = s.cell x) : HoldsHeader s' h hd := by
  cases h with
  | none =>
    cases hd with
    | none => trivial
    | some hd => exact hh.elim
  | some y =>
    cases hd with
    | none => exact hh.elim
    | some hd => show s'.cell y = _; rw [hf y rfl]; exact hh

theorem BoxHolds.frame {s s' : State} {b : Nat} {h : Option Nat} {bx : Box} (hb : BoxHolds s b h bx)
    (hf : ∀ x ∈ b :: h.toList, s'.cell x = s.cell x) : BoxHolds s' b h bx := by
  obtain ⟨⟨w, h1⟩, h2⟩ := hb
  exact ⟨⟨w, by rw [hf b (by simp), h1]⟩, holdsHeader_frame h2 fun x hx => hf x (by simp [hx])⟩

/-- The box behind `makeHeader`. -/
def _root_.Mp4.Box.made (bx : Box) : Box := { bx with header := some bx.theHeader }

theorem makeHeader_ok {s : State} {b : Nat} {h : Option Nat} {bx : Box} (hb : BoxHolds s b h bx) (hlt : b < s.next) :
    ∃ s' y, makeHeader b s = some (.ok y, s') ∧ BoxHolds s' b (some y) bx.made ∧ Local s s' (b :: h.toList) [b, y] ∧
      (h = none ∧ y = s.next ∧ s'.next = s.next + 1 ∨ h = some y ∧ s' = s) := by
  obtain ⟨⟨w, h1⟩, h2⟩ := hb
  unfold makeHeader
  rw [bind_ok (box_ok h1)]
  dsimp only
  cases h with
  | some y =>
    cases hh : bx.header with
    | none => rw [hh] at h2; exact h2.elim
    | some hd =>
      rw [hh] at h2
      refine ⟨s, y, rfl, ⟨⟨w, h1⟩, ?_⟩, .refl _ _, .inr ⟨rfl, rfl⟩⟩
      have : bx.made.header = some hd := by unfold Box.made Box.theHeader; rw [hh]; rfl
      rw [this]
      exact h2
  | none =>
    cases hh : bx.header with
    | some hd => rw [hh] at h2; exact h2.elim
    | none =>
      show ∃ s' y, (new (Obj.header { type := bx.type }) >>= fun h => do
        setBox b { type := bx.type, underWave := w, data := some bx.data, header := some h }
        pure h) s = _ ∧ _
      rw [bind_ok (new_run _ s)]
      generalize hs1 : ({ s with cell := fun x => if x = s.next then some (Obj.header { type := bx.type }) else s.cell x, next := s.next + 1 } : State) = s1
      have c1 : s1.cell s.next = some (.header { type := bx.type }) := by rw [← hs1]; simp
      have c2 : ∀ y, y ≠ s.next → s1.cell y = s.cell y := by intro y hy; rw [← hs1]; simp [hy]
      have c3 : s1.next = s.next + 1 := by rw [← hs1]
      have c4 : s1.moov = s.moov := by rw [← hs1]
      have c5 : s1.mvhd = s.mvhd := by rw [← hs1]
      clear hs1
      have hne : b ≠ s.next := by omega
      have d1 : s1.cell b = some (.box ⟨bx.type, w, some bx.data, none⟩) := by rw [c2 b hne, h1]
      rw [bind_ok (setBox_ok d1), pure_run]
      refine ⟨_, s.next, rfl, ⟨⟨w, set_self _ _ _⟩, ?_⟩, ⟨?_, ?_, ?_, ?_, ?_, ?_⟩, .inl ⟨rfl, rfl, c3⟩⟩
      · have : bx.made.header = some { type := bx.type } := by unfold Box.made Box.theHeader; rw [hh]; rfl
        rw [this]
        show (s1.set b _).cell s.next = _
        rw [set_other _ _ hne.symm, c1]
      · show s.next ≤ s1.next; omega
      · simp
      · intro x hx
        simp only [List.mem_cons, List.not_mem_nil, or_false] at hx
        rcases hx with rfl | rfl
        · exact .inl (by simp)
        · exact .inr ⟨Nat.le_refl _, by show s.next < s1.next; omega⟩
      · intro x hx
        simp only [List.mem_cons, List.not_mem_nil, or_false, not_or] at hx
        rw [set_other _ _ hx.1, c2 x hx.2]
      · exact c4
      · exact c5

theorem made_header {s : State} {b : Nat} {y : Nat} {bx : Box} (hb : BoxHolds s b (some y) bx) : ∃ hd, bx.header = some hd ∧ s.cell y = some (.header hd) := by
  cases hh : bx.header with
  | none => have := hb.2; rw [hh] at this; exact this.elim
  | some hd => have := hb.2; rw [hh] at this; exact ⟨hd, rfl, this⟩

theorem boxHeaderSize_ok {s : State} {b : Nat} {h : Option Nat} {bx : Box} (hb : BoxHolds s b h bx) (hlt : b < s.next) :
    ∃ s' y, boxHeaderSize b s = some (.ok bx.getHeaderSize, s') ∧ BoxHolds s' b (some y) bx.made ∧ Local s s' (b :: h.toList) [b, y] ∧
      (h = none ∧ y = s.next ∧ s'.next = s.next + 1 ∨ h = some y ∧ s' = s) := by
  obtain ⟨s', y, h1, h2, h3, h4⟩ := makeHeader_ok hb hlt
  refine ⟨s', y, ?_, h2, h3, h4⟩
  unfold boxHeaderSize
  have : s'.cell y = some (.header bx.theHeader) := h2.2
  rw [bind_ok h1, bind_ok (header_ok this), pure_run]
  rfl

theorem boxDataSize_ok {s : State} {b : Nat} {h : Option Nat} {bx : Box} (hb : BoxHolds s b h bx) :
    boxDataSize b s = some (.ok bx.data.getDataSize, s) := by
  obtain ⟨⟨w, h1⟩, -⟩ := hb
  unfold boxDataSize
  rw [bind_ok (box_ok h1), pure_run]
  rfl

theorem boxSetOffset_ok {s : State} {b y : Nat} {bx : Box} (hb : BoxHolds s b (some y) bx) (hlt : b < s.next) (o n : Nat) :
    ∃ s', boxSetOffset b o n s = some (.ok (), s') ∧ BoxHolds s' b (some y) (bx.setOffsetAndDataSize o n) ∧ Local s s' [b, y] [b, y] ∧
      s'.next = s.next := by
  obtain ⟨s1, y', h1, h2, -, h4⟩ := makeHeader_ok hb hlt
  rcases h4 with ⟨h4, -⟩ | ⟨h4, rfl⟩
  · cases h4
  cases h4
  have hc : s1.cell y = some (.header bx.theHeader) := h2.2
  obtain ⟨⟨w, h5⟩, -⟩ := h2
  have hne : b ≠ y := by intro e; rw [e, hc] at h5; cases h5
  refine ⟨s1.set y (some (.header (bx.theHeader.setOffsetAndDataSize o n))), ?_, ⟨⟨w, ?_⟩, ?_⟩, ⟨Nat.le_refl _, fun _ h => h, fun _ h => .inl h, ?_, rfl, rfl⟩,
    rfl⟩
  · unfold boxSetOffset
    rw [bind_ok h1, bind_ok (header_ok hc), setHeader_ok hc]
  · rw [set_other _ _ hne, h5]; rfl
  · exact set_self _ _ _
  · intro x hx
    simp only [List.mem_cons, List.not_mem_nil, or_false, not_or] at hx
    exact set_other _ _ hx.2

theorem boxSize_ok {s : State} {b : Nat} {h : Option Nat} {bx : Box} (hb : BoxHolds s b h bx) :
    boxSize b s = some (match bx.header with | none => .error (.exc "Box::getSize(): header is not set") | some hd => .ok hd.size, s) := by
  obtain ⟨⟨w, h1⟩, h2⟩ := hb
  unfold boxSize
  rw [bind_ok (box_ok h1)]
  cases h with
  | none =>
    cases hh : bx.header with
    | none => rfl
    | some hd => rw [hh] at h2; exact h2.elim
  | some y =>
    cases hh : bx.header with
    | none => rw [hh] at h2; exact h2.elim
    | some hd =>
      rw [hh] at h2
      dsimp only
      rw [bind_ok (header_ok h2), pure_run]

/-! ### trees -/

namespace ATree
mutual
/-- The same objects, some boxes having a header now. -/
def Grown : ATree → ATree → Prop
  | .node a b h ls, .node a' b' h' ls' => a' = a ∧ b' = b ∧ (h = none ∨ h' = h) ∧ GrownList ls ls'
def GrownList : List ATree → List ATree → Prop
  | [], [] => True
  | t :: ts, u :: us => Grown t u ∧ GrownList ts us
  | _, _ => False
end

mutual
theorem Grown.trans : ∀ (t u v : ATree), Grown t u → Grown u v → Grown t v
  | .node a b h ls, .node a' b' h' ls', .node a'' b'' h'' ls'', ⟨h1, h2, h3, h4⟩, ⟨k1, k2, k3, k4⟩ =>
    ⟨k1.trans h1, k2.trans h2, by
      rcases h3 with h3 | h3
      · exact .inl h3
      · subst h3; exact k3, GrownList.trans ls ls' ls'' h4 k4⟩
theorem GrownList.trans : ∀ (t u v : List ATree), GrownList t u → GrownList u v → GrownList t v
  | [], [], [], _, _ => trivial
  | t :: ts, u :: us, v :: vs, h, k => ⟨Grown.trans t u v h.1 k.1, GrownList.trans ts us vs h.2 k.2⟩
end

theorem Grown.root : ∀ {t u : ATree}, Grown t u → root u = root t
  | .node _ _ _ _, .node _ _ _ _, h => h.1
theorem GrownList.roots : ∀ {t u : List ATree}, GrownList t u → u.map ATree.root = t.map ATree.root
  | [], [], _ => rfl
  | t :: ts, u :: us, h => by rw [List.map_cons, List.map_cons, Grown.root h.1, GrownList.roots h.2]

mutual
theorem Grown.depth : ∀ (t u : ATree), Grown t u → depth u = depth t
  | .node _ _ _ ls, .node _ _ _ ls', h => by rw [ATree.depth, ATree.depth, GrownList.depth ls ls' h.2.2.2]
theorem GrownList.depth : ∀ (t u : List ATree), GrownList t u → depthList u = depthList t
  | [], [], _ => rfl
  | t :: ts, u :: us, h => by rw [depthList, depthList, Grown.depth t u h.1, GrownList.depth ts us h.2]
end

mutual
theorem Grown.refl : ∀ (t : ATree), Grown t t
  | .node _ _ _ ls => ⟨rfl, rfl, .inr rfl, GrownList.refl ls⟩
theorem GrownList.refl : ∀ (t : List ATree), GrownList t t
  | [] => trivial
  | t :: ts => ⟨Grown.refl t, GrownList.refl ts⟩
end
end ATree

theorem holds_node {s : State} {a b : Nat} {h : Option Nat} {ls : List ATree} {bx : Box} {p : List BoxType} {us : List Tree} :
    Holds s (.node a b h ls) (.node bx p us) ↔
      s.cell a = some (.info ⟨b, p, ls.map root⟩) ∧ BoxHolds s b h bx ∧ HoldsList s ls us := by
  rw [Holds]
  constructor
  · rintro ⟨h1, h2, h3, h4⟩; exact ⟨h1, ⟨h2, h3⟩, h4⟩
  · rintro ⟨h1, ⟨h2, h3⟩, h4⟩; exact ⟨h1, h2, h3, h4⟩

theorem addrs_node (a b : Nat) (h : Option Nat) (ls : List ATree) : addrs (.node a b h ls) = a :: b :: h.toList ++ addrsList ls := by rw [addrs]

theorem adjustLeafs_sim (fuel : Nat)
    (ih : ∀ t u s o n u', Holds s t u → Fine s (addrs t) → u.adjust fuel o = some (n, u') →
      ∃ s' t', adjustM fuel (root t) o s = some (.ok n, s') ∧ Holds s' t' u' ∧ Grown t t' ∧ Fine s' (addrs t') ∧ Local s s' (addrs t) (addrs t'))
    (base : Nat) : ∀ ts us s k n us', HoldsList s ts us → Fine s (addrsList ts) → Tree.adjustList (Tree.adjust fuel) base us k = some (n, us') →
      ∃ s' ts', adjustLeafsM (adjustM fuel) base (ts.map root) k s = some (.ok n, s') ∧ HoldsList s' ts' us' ∧ GrownList ts ts' ∧
        Fine s' (addrsList ts') ∧ Local s s' (addrsList ts) (addrsList ts')
  | [], [], s, k, n, us', _, hf, he => by
    cases he
    exact ⟨s, [], rfl, trivial, trivial, hf, .refl _ _⟩
  | t :: ts, u :: us, s, k, n, us', hh, hf, he => by
    rw [Tree.adjustList] at he
    cases h1 : u.adjust fuel (u64 (base + k)) with
    | none => rw [h1] at he; cases he
    | some r =>
      obtain ⟨m, u1⟩ := r
      rw [h1] at he
      dsimp only at he
      cases h2 : Tree.adjustList (Tree.adjust fuel) base us (u64 (k + m)) with
      | none => rw [h2] at he; cases he
      | some r2 =>
        obtain ⟨n2, us1⟩ := r2
        rw [h2] at he
        cases he
        rw [addrsList] at hf
        obtain ⟨s1, t1, a1, a2, a3, a4, a5⟩ := ih t u s _ _ _ hh.1 hf.left h1
        have hf1 := a5.fineL hf a4
        have hh1 : HoldsList s1 ts us := HoldsList.frame _ _ hh.2 fun x hx => a5.keeps (fun h => hf.disj h hx) (hf.right.2 x hx)
        obtain ⟨s2, ts2, b1, b2, b3, b4, b5⟩ := adjustLeafs_sim fuel ih base ts us s1 _ _ _ hh1 hf1.right h2
        have hf2 := b5.fineR hf1 b4
        refine ⟨s2, t1 :: ts2, ?_, ⟨?_, b2⟩, ⟨a3, b3⟩, by rw [addrsList]; exact hf2, ?_⟩
        · rw [List.map_cons, adjustLeafsM, bind_ok a1, b1]
        · exact Holds.frame _ _ a2 fun x hx => b5.keeps (fun h => hf1.disj hx h) (hf1.left.2 x hx)
        · rw [addrsList, addrsList]
          refine (a5.widen (c := addrsList ts) (fun x => List.mem_append) fun x => List.mem_append).trans
            (b5.widen (c := addrs t1) (fun x => ?_) fun x => ?_)
          · rw [List.mem_append]; exact or_comm
          · rw [List.mem_append]; exact or_comm

theorem adjust_sim : ∀ (fuel : Nat) (t : ATree) (u : Tree) (s : State) (o n : Nat) (u' : Tree), Holds s t u → Fine s (addrs t) →
    u.adjust fuel o = some (n, u') →
    ∃ s' t', adjustM fuel (root t) o s = some (.ok n, s') ∧ Holds s' t' u' ∧ Grown t t' ∧ Fine s' (addrs t') ∧ Local s s' (addrs t) (addrs t') := by
  intro fuel
  induction fuel with
  | zero => intro t u s o n u' _ _ he; rw [Tree.adjust] at he; cases he
  | succ fuel ih =>
    intro t u s o n u' hh hf he
    obtain ⟨a, b, h, ls⟩ := t
    obtain ⟨bx, p, us⟩ := u
    obtain ⟨h1, h2, h3⟩ := holds_node.mp hh
    rw [addrs_node] at hf
    rw [Tree.adjust] at he
    dsimp only at he
    cases he1 : Tree.adjustList (Tree.adjust fuel) (u64 (o + bx.getHeaderSize + bx.data.getDataSize)) us 0 with
    | none => rw [he1] at he; cases he
    | some r =>
      obtain ⟨m, us2⟩ := r
      rw [he1] at he
      dsimp only at he
      have hb0 : b < s.next := hf.2 b (by simp)
      have ha0 : a < s.next := hf.2 a (by simp)
      -- the header
      obtain ⟨s1, y, c1, c2, c3, c4⟩ := boxHeaderSize_ok h2 hb0
      have hf1 : Fine s1 ([a, b, y] ++ addrsList ls) := by
        rcases c4 with ⟨rfl, rfl, c4⟩ | ⟨rfl, rfl⟩
        · refine ⟨?_, fun x hx => ?_⟩
          · have := hf.1
            rw [Option.toList_none] at this
            simp only [List.cons_append, List.nil_append, List.nodup_cons, List.mem_cons, not_or] at this ⊢
            obtain ⟨⟨n1, n2⟩, n3, n4⟩ := this
            refine ⟨⟨n1, by omega, n2⟩, ⟨by omega, n3⟩, ?_, n4⟩
            intro hm
            have := hf.2 s.next (List.mem_append_right _ hm)
            omega
          · rw [c4]
            simp only [List.cons_append, List.nil_append, List.mem_cons] at hx
            rcases hx with rfl | rfl | rfl | hx
            · omega
            · omega
            · omega
            · have := hf.2 x (List.mem_append_right _ hx)
              omega
        · exact hf
      have e1 : Local s s1 (a :: b :: h.toList ++ addrsList ls) ([a, b, y] ++ addrsList ls) := by
        refine c3.widen (c := a :: addrsList ls) (fun x => ?_) fun x => ?_
        · simp only [List.cons_append, List.mem_cons, List.mem_append]
          constructor
          · rintro (h | h | h | h)
            · exact .inr (.inl h)
            · exact .inl (.inl h)
            · exact .inl (.inr h)
            · exact .inr (.inr h)
          · rintro ((h | h) | h | h)
            · exact .inr (.inl h)
            · exact .inr (.inr (.inl h))
            · exact .inl h
            · exact .inr (.inr (.inr h))
        · simp only [List.cons_append, List.nil_append, List.mem_cons, List.not_mem_nil, or_false]
          constructor
          · rintro (h | h | h | h)
            · exact .inr (.inl h)
            · exact .inl (.inl h)
            · exact .inl (.inr h)
            · exact .inr (.inr h)
          · rintro ((h | h) | h | h)
            · exact .inr (.inl h)
            · exact .inr (.inr (.inl h))
            · exact .inl h
            · exact .inr (.inr (.inr h))
      have hab : a ∉ b :: h.toList := by
        intro hm
        have := hf.1
        rw [List.cons_append, List.nodup_cons] at this
        exact this.1 (List.mem_append_left _ hm)
      have h1' : s1.cell a = some (.info ⟨b, p, ls.map root⟩) := by rw [c3.keeps hab ha0, h1]
      have h3' : HoldsList s1 ls us := HoldsList.frame _ _ h3 fun x hx => by
        refine c3.keeps (fun hm => ?_) (hf.2 x (List.mem_append_right _ hx))
        exact hf.disj (List.mem_cons_of_mem a hm) hx
      -- the leaves
      obtain ⟨s2, ls2, d1, d2, d3, d4, d5⟩ := adjustLeafs_sim fuel ih _ ls us s1 _ _ _ h3' hf1.right he1
      have hf2 := d5.fineR hf1 d4
      have kp : ∀ x ∈ [a, b, y], s2.cell x = s1.cell x := fun x hx =>
        d5.keeps (fun hm => hf1.disj hx hm) (hf1.left.2 x hx)
      have e2 : Local s1 s2 ([a, b, y] ++ addrsList ls) ([a, b, y] ++ addrsList ls2) :=
        d5.widen (c := [a, b, y]) (fun x => by rw [List.mem_append]; exact or_comm) fun x => by rw [List.mem_append]; exact or_comm
      have c2' : BoxHolds s2 b (some y) bx.made := c2.frame fun x hx => kp x (List.mem_cons_of_mem a hx)
      have h1'' : s2.cell a = some (.info ⟨b, p, ls2.map root⟩) := by rw [kp a (by simp), h1', GrownList.roots d3]
      -- the sizes
      obtain ⟨s3, g1, g2, g3, g4⟩ := boxSetOffset_ok c2' (hf2.2 b (by simp)) o (u64 (bx.data.getDataSize + m))
      have e3 : Local s2 s3 ([a, b, y] ++ addrsList ls2) ([a, b, y] ++ addrsList ls2) := by
        have hi : ∀ x, x ∈ [a, b, y] ++ addrsList ls2 ↔ x ∈ [b, y] ∨ x ∈ a :: addrsList ls2 := by
          intro x
          simp only [List.cons_append, List.nil_append, List.mem_cons, List.not_mem_nil, or_false]
          constructor
          · rintro (h | h | h | h)
            · exact .inr (.inl h)
            · exact .inl (.inl h)
            · exact .inl (.inr h)
            · exact .inr (.inr h)
          · rintro ((h | h) | h | h)
            · exact .inr (.inl h)
            · exact .inr (.inr (.inl h))
            · exact .inl h
            · exact .inr (.inr (.inr h))
        exact g3.widen hi hi
      have hf3 : Fine s3 ([a, b, y] ++ addrsList ls2) := hf2.mono (Nat.le_of_eq g4.symm)
      have hay : a ∉ [b, y] := by
        intro hm
        have := hf2.1
        rw [List.cons_append, List.nodup_cons] at this
        exact this.1 (List.mem_append_left _ hm)
      have h13 : s3.cell a = some (.info ⟨b, p, ls2.map root⟩) := by rw [g3.keeps hay (hf2.2 a (by simp)), h1'']
      have h33 : HoldsList s3 ls2 us2 := HoldsList.frame _ _ d2 fun x hx => by
        refine g3.keeps (fun hm => ?_) (hf2.2 x (List.mem_append_right _ hx))
        exact hf2.disj (List.mem_cons_of_mem a hm) hx
      have hset : bx.made.setOffsetAndDataSize o (u64 (bx.data.getDataSize + m)) = bx.setOffsetAndDataSize o (u64 (bx.data.getDataSize + m)) := rfl
      rw [hset] at g2
      have hH : Holds s3 (.node a b (some y) ls2) (.node (bx.setOffsetAndDataSize o (u64 (bx.data.getDataSize + m))) p us2) :=
        holds_node.mpr ⟨h13, g2, h33⟩
      obtain ⟨s4, y4, k1, k2, k3, k4⟩ := boxHeaderSize_ok g2 (hf3.2 b (by simp))
      rcases k4 with ⟨k4, -⟩ | ⟨k4, rfl⟩
      · cases k4
      have hrun : ∀ r, (if bx.getHeaderSize ≠ (bx.setOffsetAndDataSize o (u64 (bx.data.getDataSize + m))).getHeaderSize then (do
            let _ ← adjustM fuel a o
            boxSize b) else boxSize b) s4 = r → adjustM (fuel + 1) (root (.node a b h ls)) o s = r := by
        intro r hr
        show adjustM (fuel + 1) a o s = r
        rw [adjustM, bind_ok (info_ok h1), bind_ok c1, bind_ok (boxDataSize_ok c2)]
        have : bx.made.data.getDataSize = bx.data.getDataSize := rfl
        rw [this, bind_ok d1, bind_ok g1, bind_ok k1]
        exact hr
      have hgr : Grown (.node a b h ls) (.node a b (some y) ls2) := by
        refine ⟨rfl, rfl, ?_, d3⟩
        rcases c4 with ⟨rfl, -⟩ | ⟨rfl, -⟩
        · exact .inl rfl
        · exact .inr rfl
      have hL : Local s s4 (addrs (.node a b h ls)) (addrs (.node a b (some y) ls2)) := by
        rw [addrs_node, addrs_node]
        exact (e1.trans e2).trans e3
      have hsz : ∀ {s : State} {b : Nat} {h : Option Nat} {z : Box}, BoxHolds s b h z → z.header ≠ none → boxSize b s = some (.ok z.theHeader.size, s) := by
        intro s b h z hz hne
        rw [boxSize_ok hz]
        cases hz2 : z.header with
        | none => exact absurd hz2 hne
        | some hd => unfold Box.theHeader; rw [hz2]; rfl
      split at he
      · rename_i hc
        cases he2 : Tree.adjust fuel (.node (bx.setOffsetAndDataSize o (u64 (bx.data.getDataSize + m))) p us2) o with
        | none => rw [he2] at he; cases he
        | some r2 =>
          obtain ⟨n4, u4⟩ := r2
          rw [he2] at he
          cases he
          obtain ⟨s5, t5, q1, q2, q3, q4, q5⟩ := ih _ _ _ _ _ _ hH (by rw [addrs_node]; exact hf3) he2
          refine ⟨s5, t5, hrun _ ?_, q2, Grown.trans _ _ _ hgr q3, q4, hL.trans q5⟩
          obtain ⟨a5, b5, h5, ls5⟩ := t5
          obtain ⟨bx5, p5, us5⟩ := u'
          obtain ⟨r1, r2, r3⟩ := holds_node.mp q2
          obtain ⟨rfl, rfl, w3, -⟩ := q3
          rw [if_pos hc, bind_ok (show adjustM fuel a5 o s4 = _ from q1)]
          rcases w3 with w3 | w3
          · cases w3
          · subst w3
            obtain ⟨hd, v1, -⟩ := made_header r2
            exact hsz r2 (by show bx5.header ≠ none; rw [v1]; intro e; cases e)
      · rename_i hc
        cases he
        refine ⟨s4, _, hrun _ ?_, hH, hgr, by rw [addrs_node]; exact hf3, hL⟩
        rw [if_neg hc]
        exact hsz g2 (by intro e; cases e)


/-! ### writing -/

/-- How a call on values that passes a stream through ends on the heap. -/
def streamRes (r : Except Err Unit) (st : FStream) : Except Err FStream :=
  match r with
  | .error e => .error e
  | .ok _ => .ok st

theorem boxWrite_sim (dev : Device) {s : State} {b : Nat} {h : Option Nat} {bx : Box} (hb : BoxHolds s b h bx) (st : FStream) :
    ∃ s', boxWrite dev b st s = some ((match (bx.writeF dev st).1 with | .error e => .error e | .ok _ => .ok (bx.writeF dev st).2.2), s') ∧
      BoxHolds s' b h (bx.writeF dev st).2.1 ∧ Local s s' (b :: h.toList) (b :: h.toList) ∧ s'.next = s.next := by
  obtain ⟨⟨w, h1⟩, h2⟩ := hb
  unfold boxWrite
  rw [bind_ok (box_ok h1)]
  unfold Box.writeF
  dsimp only
  cases h with
  | none =>
    cases hh : bx.header with
    | some hd => rw [hh] at h2; exact h2.elim
    | none => exact ⟨s, rfl, ⟨⟨w, h1⟩, by rw [hh]; trivial⟩, .refl _ _, rfl⟩
  | some y =>
    cases hh : bx.header with
    | none => rw [hh] at h2; exact h2.elim
    | some hd =>
      rw [hh] at h2
      have h2 : s.cell y = some (.header hd) := h2
      have hne : b ≠ y := by intro e; rw [e, h2] at h1; cases h1
      dsimp only
      rw [bind_ok (header_ok h2)]
      have hl : ∀ hd', Local s (s.set y (some (.header hd'))) (b :: (some y).toList) (b :: (some y).toList) := by
        intro hd'
        refine ⟨Nat.le_refl _, fun _ h => h, fun _ h => .inl h, ?_, rfl, rfl⟩
        intro x hx
        simp only [Option.toList_some, List.mem_cons, List.not_mem_nil, or_false, not_or] at hx
        exact set_other _ _ hx.2
      have hbh : ∀ hd', BoxHolds (s.set y (some (.header hd'))) b (some y) { bx with header := some hd' } := by
        intro hd'
        exact ⟨⟨w, by rw [set_other _ _ hne, h1]⟩, set_self _ _ _⟩
      rcases hw : hd.writeF dev st with ⟨r, hd', st'⟩
      cases r with
      | error e =>
        dsimp only
        rw [bind_ok (setHeader_ok h2)]
        exact ⟨_, rfl, hbh hd', hl hd', rfl⟩
      | ok n =>
        dsimp only
        rw [bind_ok (setHeader_ok h2)]
        rw [show (some bx.data).getD BoxData.empty = bx.data from rfl]
        rcases hr : bx.data.writeData.runF dev st' with ⟨r2, st2⟩
        cases r2 with
        | error e => exact ⟨_, rfl, hbh hd', hl hd', rfl⟩
        | ok m => exact ⟨_, rfl, hbh hd', hl hd', rfl⟩

/-- A call on values, on the heap. -/
theorem writeF_node (dev : Device) (b : Box) (p : List BoxType) (ls : List Tree) (s : FStream) :
    Tree.writeF dev (.node b p ls) s = (match (b.writeF dev s).1 with
      | .error e => (.error e, .node (b.writeF dev s).2.1 p ls, (b.writeF dev s).2.2)
      | .ok _ => ((Tree.writeListF dev ls (b.writeF dev s).2.2).1,
          .node (b.writeF dev s).2.1 p (Tree.writeListF dev ls (b.writeF dev s).2.2).2.1, (Tree.writeListF dev ls (b.writeF dev s).2.2).2.2)) := by
  rw [Tree.writeF]; rfl
theorem writeListF_cons (dev : Device) (t : Tree) (ts : List Tree) (s : FStream) :
    Tree.writeListF dev (t :: ts) s = (match (t.writeF dev s).1 with
      | .error e => (.error e, (t.writeF dev s).2.1 :: ts, (t.writeF dev s).2.2)
      | .ok _ => ((Tree.writeListF dev ts (t.writeF dev s).2.2).1,
          (t.writeF dev s).2.1 :: (Tree.writeListF dev ts (t.writeF dev s).2.2).2.1, (Tree.writeListF dev ts (t.writeF dev s).2.2).2.2)) := by
  rw [Tree.writeListF]; rfl

mutual
theorem write_sim (dev : Device) : ∀ (t : ATree) (u : Tree) (s : State) (fuel : Nat) (st : FStream), Holds s t u → Fine s (addrs t) →
    depth t ≤ fuel → ∃ s', writeM dev fuel (root t) st s = some (streamRes (u.writeF dev st).1 (u.writeF dev st).2.2, s') ∧
      Holds s' t (u.writeF dev st).2.1 ∧ Local s s' (addrs t) (addrs t) ∧ s'.next = s.next
  | .node a b h ls, .node bx p us, s, fuel, st, hh, hf, hd => by
    cases fuel with
    | zero => rw [depth] at hd; cases hd
    | succ fuel =>
      rw [depth] at hd
      obtain ⟨h1, h2, h3⟩ := holds_node.mp hh
      rw [addrs_node] at hf ⊢
      obtain ⟨s1, a1, a2, a3, a4⟩ := boxWrite_sim dev h2 st
      have hab : a ∉ b :: h.toList := by
        intro hm
        have := hf.1
        rw [List.cons_append, List.nodup_cons] at this
        exact this.1 (List.mem_append_left _ hm)
      have h1' : s1.cell a = some (.info ⟨b, p, ls.map root⟩) := by rw [a3.keeps hab (hf.2 a (by simp)), h1]
      have h3' : HoldsList s1 ls us := HoldsList.frame _ _ h3 fun x hx =>
        a3.keeps (fun hm => hf.disj (List.mem_cons_of_mem a hm) hx) (hf.2 x (List.mem_append_right _ hx))
      have hi : ∀ x, x ∈ a :: b :: h.toList ++ addrsList ls ↔ x ∈ b :: h.toList ∨ x ∈ a :: addrsList ls := by
        intro x
        simp only [List.cons_append, List.mem_cons, List.mem_append]
        constructor
        · rintro (h | h | h | h)
          · exact .inr (.inl h)
          · exact .inl (.inl h)
          · exact .inl (.inr h)
          · exact .inr (.inr h)
        · rintro ((h | h) | h | h)
          · exact .inr (.inl h)
          · exact .inr (.inr (.inl h))
          · exact .inl h
          · exact .inr (.inr (.inr h))
      have e1 := a3.widen (c := a :: addrsList ls) hi hi
      rw [writeF_node]
      cases hr : (bx.writeF dev st).1 with
      | error e =>
        rw [hr] at a1
        dsimp only at a1 ⊢
        refine ⟨s1, ?_, holds_node.mpr ⟨h1', a2, h3'⟩, e1, a4⟩
        show writeM dev (fuel + 1) a st s = _
        rw [writeM, bind_ok (info_ok h1), bind_error a1]; rfl
      | ok n =>
        rw [hr] at a1
        dsimp only at a1 ⊢
        have hf1 := hf.mono (Nat.le_of_eq a4.symm)
        obtain ⟨s2, b1, b2, b3, b4⟩ := writes_sim dev ls us s1 fuel (bx.writeF dev st).2.2 h3' hf1.right (by omega)
        have kp : ∀ x ∈ a :: b :: h.toList, s2.cell x = s1.cell x := fun x hx =>
          b3.keeps (fun hm => hf1.disj hx hm) (hf1.left.2 x hx)
        refine ⟨s2, ?_, holds_node.mpr ⟨by rw [kp a (by simp), h1'], a2.frame fun x hx => kp x (List.mem_cons_of_mem a hx), b2⟩, ?_, by rw [b4, a4]⟩
        · show writeM dev (fuel + 1) a st s = _
          rw [writeM, bind_ok (info_ok h1), bind_ok a1, b1]
        · refine e1.trans (b3.widen (c := a :: b :: h.toList) (fun x => ?_) fun x => ?_)
          · rw [List.mem_append]; exact or_comm
          · rw [List.mem_append]; exact or_comm
theorem writes_sim (dev : Device) : ∀ (ts : List ATree) (us : List Tree) (s : State) (fuel : Nat) (st : FStream), HoldsList s ts us →
    Fine s (addrsList ts) → depthList ts ≤ fuel →
    ∃ s', writeLeafsM (writeM dev fuel) (ts.map root) st s =
        some (streamRes (Tree.writeListF dev us st).1 (Tree.writeListF dev us st).2.2, s') ∧
      HoldsList s' ts (Tree.writeListF dev us st).2.1 ∧ Local s s' (addrsList ts) (addrsList ts) ∧ s'.next = s.next
  | [], [], s, fuel, st, _, hf, _ => by
    rw [Tree.writeListF]
    exact ⟨s, rfl, trivial, .refl _ _, rfl⟩
  | t :: ts, u :: us, s, fuel, st, hh, hf, hd => by
    rw [depthList] at hd
    rw [addrsList] at hf ⊢
    obtain ⟨s1, a1, a2, a3, a4⟩ := write_sim dev t u s fuel st hh.1 hf.left (by omega)
    have hh1 : HoldsList s1 ts us := HoldsList.frame _ _ hh.2 fun x hx => a3.keeps (fun h => hf.disj h hx) (hf.right.2 x hx)
    have e1 := a3.widen (c := addrsList ts) (fun x => List.mem_append) fun x => List.mem_append
    rw [writeListF_cons, List.map_cons, writeLeafsM]
    cases hr : (u.writeF dev st).1 with
    | error e =>
      rw [hr] at a1
      dsimp only [streamRes] at a1 ⊢
      refine ⟨s1, bind_error a1, ⟨a2, hh1⟩, e1, a4⟩
    | ok n =>
      rw [hr] at a1
      dsimp only [streamRes] at a1 ⊢
      have hf1 := hf.mono (Nat.le_of_eq a4.symm)
      obtain ⟨s2, b1, b2, b3, b4⟩ := writes_sim dev ts us s1 fuel (u.writeF dev st).2.2 hh1 hf1.right (by omega)
      refine ⟨s2, ?_, ⟨?_, b2⟩, ?_, by rw [b4, a4]⟩
      · rw [bind_ok a1]; exact b1
      · exact Holds.frame _ _ a2 fun x hx => b3.keeps (fun h => hf1.disj hx h) (hf1.left.2 x hx)
      · refine e1.trans (b3.widen (c := addrs t) (fun x => ?_) fun x => ?_)
        · rw [List.mem_append]; exact or_comm
        · rw [List.mem_append]; exact or_comm
end

end Mem
end Mp4
