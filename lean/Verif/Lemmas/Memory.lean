import Verif.Model.Memory

/-! # Reasoning about objects in memory -/

namespace Mp4
namespace Mem

theorem bind_ok {α β : Type} {m : M α} {k : α → M β} {s s' : State} {a : α} (h : m s = some (.ok a, s')) : (m >>= k) s = k a s' := by
  show M.andThen m k s = _
  unfold M.andThen
  rw [h]

theorem bind_error {α β : Type} {m : M α} {k : α → M β} {s s' : State} {e : Err} (h : m s = some (.error e, s')) :
    (m >>= k) s = some (.error e, s') := by
  show M.andThen m k s = _
  unfold M.andThen
  rw [h]

theorem bind_none {α β : Type} {m : M α} {k : α → M β} {s : State} (h : m s = none) : (m >>= k) s = none := by
  show M.andThen m k s = _
  unfold M.andThen
  rw [h]

theorem pure_run {α : Type} (a : α) (s : State) : (pure a : M α) s = some (.ok a, s) := rfl

theorem header_ok {s : State} {a : Addr} {h : BoxHeader} (c : s.cell a = some (.header h)) : header a s = some (.ok h, s) := by
  unfold header; rw [c]
theorem box_ok {s : State} {a : Addr} {b : BoxObj} (c : s.cell a = some (.box b)) : box a s = some (.ok b, s) := by
  unfold box; rw [c]
theorem info_ok {s : State} {a : Addr} {i : InfoObj} (c : s.cell a = some (.info i)) : info a s = some (.ok i, s) := by
  unfold info; rw [c]
theorem setHeader_ok {s : State} {a : Addr} {h h' : BoxHeader} (c : s.cell a = some (.header h)) :
    setHeader a h' s = some (.ok (), s.set a (some (.header h'))) := by
  unfold setHeader M.andThen; rw [header_ok c]
theorem setBox_ok {s : State} {a : Addr} {b b' : BoxObj} (c : s.cell a = some (.box b)) :
    setBox a b' s = some (.ok (), s.set a (some (.box b'))) := by
  unfold setBox M.andThen; rw [box_ok c]
theorem setInfo_ok {s : State} {a : Addr} {i i' : InfoObj} (c : s.cell a = some (.info i)) :
    setInfo a i' s = some (.ok (), s.set a (some (.info i'))) := by
  unfold setInfo M.andThen; rw [info_ok c]
theorem free_ok {s : State} {a : Addr} {o : Obj} (c : s.cell a = some o) : free a s = some (.ok (), s.set a none) := by
  unfold free; rw [c]
theorem set_cell (s : State) (a x : Addr) (o : Option Obj) : (s.set a o).cell x = if x = a then o else s.cell x := rfl
theorem set_self (s : State) (a : Addr) (o : Option Obj) : (s.set a o).cell a = o := by rw [set_cell, if_pos rfl]
theorem set_other (s : State) {a x : Addr} (o : Option Obj) (h : x ≠ a) : (s.set a o).cell x = s.cell x := by rw [set_cell, if_neg h]
theorem set_next (s : State) (a : Addr) (o : Option Obj) : (s.set a o).next = s.next := rfl
theorem set_boxes (s : State) (a : Addr) (o : Option Obj) : (s.set a o).boxes = s.boxes := rfl

/-- The addresses of the objects of a tree: `BoxInfo`, `Box`, `BoxHeader`. -/
inductive ATree where
  | node (a b : Addr) (h : Option Addr) (leafs : List ATree)

namespace ATree
def root : ATree → Addr
  | node a _ _ _ => a
mutual
def addrs : ATree → List Addr
  | node a b h ls => a :: b :: h.toList ++ addrsList ls
def addrsList : List ATree → List Addr
  | [] => []
  | t :: ts => addrs t ++ addrsList ts
end
mutual
def depth : ATree → Nat
  | node _ _ _ ls => depthList ls + 1
def depthList : List ATree → Nat
  | [] => 0
  | t :: ts => max (depth t) (depthList ts)
end

mutual
/-- The objects exist and point to each other as the tree says. -/
def Rep (s : State) : ATree → Prop
  | node a b h ls => (∃ p, s.cell a = some (.info ⟨b, p, ls.map root⟩)) ∧ (∃ x, s.cell b = some (.box x) ∧ x.header = h) ∧
      (∀ y, h = some y → ∃ hd, s.cell y = some (.header hd)) ∧ RepList s ls
def RepList (s : State) : List ATree → Prop
  | [] => True
  | t :: ts => Rep s t ∧ RepList s ts
end

/-- The header of a box in memory. -/
def HoldsHeader (s : State) : Option Addr → Option BoxHeader → Prop
  | none, none => True
  | some y, some hd => s.cell y = some (.header hd)
  | _, _ => False

mutual
/-- The objects have the values of a tree. -/
def Holds (s : State) : ATree → Tree → Prop
  | node a b h ls, .node box path leafs => s.cell a = some (.info ⟨b, path, ls.map root⟩) ∧
      (∃ w, s.cell b = some (.box ⟨box.type, w, some box.data, h⟩)) ∧ HoldsHeader s h box.header ∧ HoldsList s ls leafs
def HoldsList (s : State) : List ATree → List Tree → Prop
  | [], [] => True
  | t :: ts, u :: us => Holds s t u ∧ HoldsList s ts us
  | _, _ => False
end

theorem addrsList_append (ts us : List ATree) : addrsList (ts ++ us) = addrsList ts ++ addrsList us := by
  induction ts with
  | nil => rfl
  | cons t ts ih => rw [List.cons_append, addrsList, ih, addrsList, List.append_assoc]

theorem RepList_append {s : State} : ∀ {ts us : List ATree}, RepList s ts → RepList s us → RepList s (ts ++ us)
  | [], _, _, h => h
  | _ :: _, _, h1, h2 => ⟨h1.1, RepList_append h1.2 h2⟩

mutual
theorem Rep.frame {s s' : State} : ∀ (t : ATree), Rep s t → (∀ x ∈ addrs t, s'.cell x = s.cell x) → Rep s' t
  | node a b h ls, ⟨⟨p, h1⟩, ⟨x, h2, h3⟩, h4, h5⟩, hf => by
    have hf : ∀ x ∈ a :: b :: h.toList ++ addrsList ls, s'.cell x = s.cell x := hf
    refine ⟨⟨p, by rw [hf a (by simp), h1]⟩, ⟨x, by rw [hf b (by simp), h2], h3⟩, fun y hy => ?_, RepList.frame ls h5 (fun x hx => hf x ?_)⟩
    · obtain ⟨hd, h6⟩ := h4 y hy
      exact ⟨hd, by rw [hf y (by simp [hy]), h6]⟩
    · exact List.mem_append_right _ hx
theorem RepList.frame {s s' : State} : ∀ (ts : List ATree), RepList s ts → (∀ x ∈ addrsList ts, s'.cell x = s.cell x) → RepList s' ts
  | [], _, _ => trivial
  | t :: ts, h, hf => ⟨Rep.frame t h.1 fun x hx => hf x (List.mem_append_left _ hx), RepList.frame ts h.2 fun x hx => hf x (List.mem_append_right _ hx)⟩
end

mutual
theorem Holds.frame {s s' : State} : ∀ (t : ATree) (u : Tree), Holds s t u → (∀ x ∈ addrs t, s'.cell x = s.cell x) → Holds s' t u
  | node a b h ls, .node box path leafs, ⟨h1, ⟨w, h2⟩, h4, h5⟩, hf => by
    have hf : ∀ x ∈ a :: b :: h.toList ++ addrsList ls, s'.cell x = s.cell x := hf
    refine ⟨by rw [hf a (by simp), h1], ⟨w, by rw [hf b (by simp), h2]⟩, ?_, HoldsList.frame ls leafs h5 (fun x hx => hf x ?_)⟩
    · cases h with
      | none =>
        cases hh : box.header with
        | none => trivial
        | some hd => rw [hh] at h4; exact h4.elim
      | some y =>
        cases hh : box.header with
        | none => rw [hh] at h4; exact h4.elim
        | some hd => rw [hh] at h4; show s'.cell y = _; rw [hf y (by simp)]; exact h4
    · exact List.mem_append_right _ hx
theorem HoldsList.frame {s s' : State} : ∀ (ts : List ATree) (us : List Tree), HoldsList s ts us →
    (∀ x ∈ addrsList ts, s'.cell x = s.cell x) → HoldsList s' ts us
  | [], [], _, _ => trivial
  | t :: ts, u :: us, h, hf =>
    ⟨Holds.frame t u h.1 fun x hx => hf x (List.mem_append_left _ hx), HoldsList.frame ts us h.2 fun x hx => hf x (List.mem_append_right _ hx)⟩
end

mutual
theorem Holds.rep {s : State} : ∀ (t : ATree) (u : Tree), Holds s t u → Rep s t
  | node a b h ls, .node box path leafs, ⟨h1, ⟨w, h2⟩, h4, h5⟩ =>
    ⟨⟨path, h1⟩, ⟨_, h2, rfl⟩, fun y hy => by
      subst hy
      cases hh : box.header with
      | none => rw [hh] at h4; exact h4.elim
      | some hd => rw [hh] at h4; exact ⟨hd, h4⟩, HoldsList.rep ls leafs h5⟩
theorem HoldsList.rep {s : State} : ∀ (ts : List ATree) (us : List Tree), HoldsList s ts us → RepList s ts
  | [], [], _ => trivial
  | t :: ts, u :: us, h => ⟨Holds.rep t u h.1, HoldsList.rep ts us h.2⟩
end

theorem HoldsList_append {s : State} : ∀ {ts us : List ATree} {vs ws : List Tree}, HoldsList s ts vs → HoldsList s us ws →
    HoldsList s (ts ++ us) (vs ++ ws)
  | [], _, [], _, _, h => h
  | _ :: _, _, _ :: _, _, h1, h2 => ⟨h1.1, HoldsList_append h1.2 h2⟩

end ATree

open ATree

/-- The objects at these addresses are deleted. -/
def State.clear (s : State) (l : List Addr) : State := { s with cell := fun x => if x ∈ l then none else s.cell x }

theorem clear_nil (s : State) : s.clear [] = s := by
  unfold State.clear
  simp

theorem clear_append (s : State) (l l' : List Addr) : (s.clear l).clear l' = s.clear (l ++ l') := by
  unfold State.clear
  congr 1
  funext x
  by_cases h : x ∈ l' <;> by_cases h' : x ∈ l <;> simp [h, h']

theorem set_none (s : State) (a : Addr) : s.set a none = s.clear [a] := by
  unfold State.clear State.set
  simp

theorem clear_congr {s : State} {l l' : List Addr} (h : ∀ x, x ∈ l ↔ x ∈ l') : s.clear l = s.clear l' := by
  unfold State.clear
  simp only [h]

theorem clear_other {s : State} {l : List Addr} {x : Addr} (h : x ∉ l) : (s.clear l).cell x = s.cell x := by
  unfold State.clear; simp [h]

theorem deleteBox_ok {s : State} {b : Addr} {x : BoxObj} (h1 : s.cell b = some (.box x))
    (h2 : ∀ y, x.header = some y → (∃ hd, s.cell y = some (.header hd))) : deleteBox b s = some (.ok (), s.clear (b :: x.header.toList)) := by
  unfold deleteBox
  rw [bind_ok (box_ok h1)]
  cases hh : x.header with
  | none =>
    dsimp only
    show free b s = _
    rw [free_ok h1, set_none]; rfl
  | some y =>
    obtain ⟨hd, h3⟩ := h2 y hh
    have hne : b ≠ y := by intro h; rw [h] at h1; rw [h1] at h3; cases h3
    dsimp only
    rw [bind_ok (free_ok h3), free_ok (by rw [set_other _ _ hne]; exact h1), set_none, set_none, clear_append]
    congr 2
    apply clear_congr
    intro x
    simp [or_comm]

mutual
theorem deleteInfo_ok : ∀ (t : ATree) (s : State) (fuel : Nat), Rep s t → (addrs t).Nodup → depth t ≤ fuel →
    deleteInfo fuel (root t) s = some (.ok (), s.clear (addrs t))
  | node a b h ls, s, fuel, ⟨⟨p, h1⟩, ⟨x, h2, h3⟩, h4, h5⟩, hn, hf => by
    have hn : (a :: b :: h.toList ++ addrsList ls).Nodup := hn
    cases fuel with
    | zero => rw [depth] at hf; cases hf
    | succ fuel =>
      rw [depth] at hf
      rw [List.cons_append, List.cons_append, List.nodup_cons, List.nodup_cons, List.nodup_append] at hn
      obtain ⟨ha, hb, hh, hl, hd⟩ := hn
      simp only [List.mem_cons, List.mem_append, not_or] at ha hb
      show deleteInfo (fuel + 1) a s = _
      rw [deleteInfo, bind_ok (info_ok h1), bind_ok (deleteInfos_ok ls s fuel h5 hl (by omega))]
      have h2' : (s.clear (addrsList ls)).cell b = some (.box x) := by rw [clear_other hb.2, h2]
      rw [bind_ok (deleteBox_ok h2' (by
        intro y hy
        rw [h3] at hy
        obtain ⟨hd', h6⟩ := h4 y hy
        refine ⟨hd', ?_⟩
        rw [clear_other, h6]
        intro hm
        exact hd y (by simp [hy]) y hm rfl)), clear_append]
      have h1' : (s.clear (addrsList ls ++ b :: x.header.toList)).cell a = some (.info ⟨b, p, ls.map root⟩) := by
        rw [clear_other, h1]
        rw [h3]
        simp only [List.mem_append, List.mem_cons, not_or]
        exact ⟨ha.2.2, ha.1, ha.2.1⟩
      rw [free_ok h1', set_none, clear_append, h3]
      congr 2
      apply clear_congr
      intro z
      show _ ↔ z ∈ a :: b :: h.toList ++ addrsList ls
      simp only [List.mem_append, List.mem_cons, List.not_mem_nil, or_false]
      grind
theorem deleteInfos_ok : ∀ (ts : List ATree) (s : State) (fuel : Nat), RepList s ts → (addrsList ts).Nodup → depthList ts ≤ fuel →
    forEach (deleteInfo fuel) (ts.map root) s = some (.ok (), s.clear (addrsList ts))
  | [], s, fuel, _, _, _ => by
    rw [show addrsList [] = [] from rfl, clear_nil]; rfl
  | t :: ts, s, fuel, h, hn, hf => by
    rw [addrsList, List.nodup_append] at hn
    rw [depthList] at hf
    rw [List.map_cons, forEach, bind_ok (deleteInfo_ok t s fuel h.1 hn.1 (by omega)),
      deleteInfos_ok ts _ fuel (RepList.frame ts h.2 fun x hx => clear_other (fun hx' => hn.2.2 x hx' x hx rfl)) hn.2.1 (by omega),
      clear_append, addrsList]
end

mutual
theorem load_ok : ∀ (t : ATree) (u : Tree) (s : State) (fuel : Nat), Holds s t u → depth t ≤ fuel → load fuel (root t) s = some (.ok u, s)
  | node a b h ls, .node bx path leafs, s, fuel, ⟨h1, ⟨w, h2⟩, h4, h5⟩, hf => by
    cases fuel with
    | zero => rw [depth] at hf; cases hf
    | succ fuel =>
      rw [depth] at hf
      show load (fuel + 1) a s = _
      rw [load, bind_ok (info_ok h1), bind_ok (loads_ok ls leafs s fuel h5 (by omega)), bind_ok (box_ok h2)]
      dsimp only
      cases h with
      | none =>
        cases hh : bx.header with
        | none =>
          rw [bind_ok (show headerOf none s = _ from rfl), pure_run]
          obtain ⟨t, d, hd⟩ := bx
          cases hh; rfl
        | some hd => rw [hh] at h4; exact h4.elim
      | some y =>
        cases hh : bx.header with
        | none => rw [hh] at h4; exact h4.elim
        | some hd =>
          rw [hh] at h4
          have : headerOf (some y) s = some (.ok (some hd), s) := by
            rw [headerOf, bind_ok (header_ok h4), pure_run]
          rw [bind_ok this, pure_run]
          obtain ⟨t, d, hd⟩ := bx
          cases hh; rfl
theorem loads_ok : ∀ (ts : List ATree) (us : List Tree) (s : State) (fuel : Nat), HoldsList s ts us → depthList ts ≤ fuel →
    mapEach (load fuel) (ts.map root) s = some (.ok us, s)
  | [], [], s, fuel, _, _ => rfl
  | t :: ts, u :: us, s, fuel, h, hf => by
    rw [depthList] at hf
    rw [List.map_cons, mapEach, bind_ok (load_ok t u s fuel h.1 (by omega)), bind_ok (loads_ok ts us s fuel h.2 (by omega)), pure_run]
end

end Mem
end Mp4
