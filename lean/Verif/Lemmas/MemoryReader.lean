import Verif.Lemmas.Memory

/-! # `SimpleReader` in memory does what the model on values does -/

namespace Mp4
open Mem Mem.ATree
namespace Mem

/-- The parent exists, with this path, and is a `wave` box or not. -/
def WfParent (s : State) (parent : Option Addr) (path : List BoxType) (wave : Bool) : Prop :=
  match parent with
  | none => path = [] ∧ wave = false
  | some p => ∃ i b, s.cell p = some (.info i) ∧ s.cell i.box = some (.box b) ∧ i.path = path ∧ wave = decide (b.type = fourcc "wave") ∧
      p < s.next ∧ i.box < s.next

/-- The state with pointers to new objects in the list of the parent. -/
def attached (s : State) (parent : Option Addr) (rs : List Addr) : State :=
  match parent with
  | none => { s with boxes := s.boxes ++ rs }
  | some p =>
    match s.cell p with
    | some (.info i) => s.set p (some (.info { i with leafs := i.leafs ++ rs }))
    | _ => s

/-- From `s` to `s'` the trees `ts` were created below the parent, and the objects `strays`; nothing else happened. -/
structure Ext (s s' : State) (parent : Option Addr) (ts : List ATree) (strays : List Addr) : Prop where
  le : s.next ≤ s'.next
  old : ∀ x, x < s.next → s'.cell x = (attached s parent (ts.map root)).cell x
  boxes : s'.boxes = (attached s parent (ts.map root)).boxes
  rep : RepList s' ts
  nodup : (addrsList ts ++ strays).Nodup
  new : ∀ x, x ∈ addrsList ts ++ strays ↔ s.next ≤ x ∧ x < s'.next
  above : (∀ x, s.next ≤ x → s.cell x = none) → ∀ x, s'.next ≤ x → s'.cell x = none

theorem attached_other {s : State} {parent : Option Addr} {rs : List Addr} {x : Addr} (h : parent ≠ some x) :
    (attached s parent rs).cell x = s.cell x := by
  unfold attached
  split
  · rfl
  · rename_i p
    split
    · exact set_other _ _ (by intro e; exact h (by rw [e]))
    · rfl

theorem attached_nil (s : State) (parent : Option Addr) : (attached s parent []).cell = s.cell ∧ (attached s parent []).boxes = s.boxes := by
  unfold attached
  split
  · exact ⟨rfl, List.append_nil _⟩
  · split
    · rename_i i h
      refine ⟨?_, rfl⟩
      funext x
      rw [set_cell]
      split
      · rename_i e; rw [e, h, List.append_nil]
      · rfl
    · exact ⟨rfl, rfl⟩

theorem attached_self {s : State} {p : Addr} {i : InfoObj} {rs : List Addr} (h : s.cell p = some (.info i)) :
    (attached s (some p) rs).cell p = some (.info { i with leafs := i.leafs ++ rs }) := by
  unfold attached
  dsimp only
  rw [h]
  exact set_self _ _ _

theorem Ext.refl (s : State) (parent : Option Addr) : Ext s s parent [] [] := by
  refine ⟨Nat.le_refl _, fun x _ => by rw [List.map_nil, (attached_nil s parent).1], by rw [List.map_nil, (attached_nil s parent).2], trivial,
    List.nodup_nil, fun x => ?_, fun h => h⟩
  show x ∈ [] ↔ _
  simp only [List.not_mem_nil, false_iff]
  omega

/-- Objects that are not the parent keep their value. -/
theorem Ext.keeps {s s' : State} {parent : Option Addr} {ts : List ATree} {st : List Addr} (h : Ext s s' parent ts st) {x : Addr}
    (hx : x < s.next) (hp : parent ≠ some x) : s'.cell x = s.cell x := by
  rw [h.old x hx, attached_other hp]

theorem WfParent.lt {s : State} {parent : Option Addr} {path : List BoxType} {wave : Bool} (h : WfParent s parent path wave) {p : Addr}
    (hp : parent = some p) : p < s.next := by
  subst hp
  obtain ⟨i, b, -, -, -, -, h, -⟩ := h
  exact h

theorem Ext.wf {s s' : State} {parent : Option Addr} {ts : List ATree} {st : List Addr} {path : List BoxType} {wave : Bool}
    (h : Ext s s' parent ts st) (hw : WfParent s parent path wave) : WfParent s' parent path wave := by
  cases parent with
  | none => exact hw
  | some p =>
    obtain ⟨i, b, h1, h2, h3, h4, h5, h6⟩ := hw
    have hle := h.le
    refine ⟨{ i with leafs := i.leafs ++ ts.map root }, b, ?_, ?_, h3, h4, by omega, Nat.lt_of_lt_of_le h6 hle⟩
    · rw [h.old p h5, attached_self h1]
    · show s'.cell i.box = _
      rw [h.keeps h6 (by intro e; cases e; rw [h1] at h2; cases h2), h2]

theorem Ext.trans {s s1 s2 : State} {parent : Option Addr} {ts1 ts2 : List ATree} {st : List Addr} {path : List BoxType} {wave : Bool}
    (hw : WfParent s parent path wave) (h1 : Ext s s1 parent ts1 []) (h2 : Ext s1 s2 parent ts2 st) :
    Ext s s2 parent (ts1 ++ ts2) st := by
  have hle := h1.le
  have hle2 := h2.le
  have hmem : ∀ x, x ∈ addrsList ts1 ↔ s.next ≤ x ∧ x < s1.next := by
    intro x
    have := h1.new x
    rwa [List.append_nil] at this
  refine ⟨by omega, ?_, ?_, ?_, ?_, ?_, fun h => h2.above (h1.above h)⟩
  · intro x hx
    rw [h2.old x (by omega)]
    by_cases hp : parent = some x
    · subst hp
      obtain ⟨i, b, c1, -⟩ := hw
      have c2 := h1.old x hx
      rw [attached_self c1] at c2
      rw [attached_self c2, attached_self c1]
      simp
    · rw [attached_other hp, attached_other hp, h1.keeps hx hp]
  · rw [h2.boxes]
    cases parent with
    | none =>
      have := h1.boxes
      simp only [attached] at this ⊢
      rw [this]; simp
    | some p =>
      obtain ⟨i, b, c1, -, -, -, c3, -⟩ := hw
      have c2 := h1.old p c3
      rw [attached_self c1] at c2
      have := h1.boxes
      simp only [attached, c1, c2, set_boxes] at this ⊢
      exact this
  · refine RepList_append (RepList.frame _ h1.rep fun x hx => ?_) h2.rep
    have := (hmem x).mp hx
    exact h2.keeps this.2 (by intro hp; have := hw.lt hp; omega)
  · rw [addrsList_append, List.append_assoc, List.nodup_append]
    have := h1.nodup
    rw [List.append_nil] at this
    refine ⟨this, h2.nodup, ?_⟩
    intro x hx y hy e
    have h3 := (hmem x).mp hx
    have h4 := (h2.new y).mp hy
    omega
  · intro x
    rw [addrsList_append, List.append_assoc, List.mem_append, hmem, h2.new]
    omega

/-- Holding values survives further creations. -/
theorem Ext.holds {s s1 s2 : State} {parent : Option Addr} {ts1 ts2 : List ATree} {st : List Addr} {path : List BoxType} {wave : Bool}
    {us : List Tree} (hw : WfParent s parent path wave) (h1 : Ext s s1 parent ts1 []) (h2 : Ext s1 s2 parent ts2 st)
    (hh : HoldsList s1 ts1 us) : HoldsList s2 ts1 us := by
  refine HoldsList.frame _ _ hh fun x hx => ?_
  have h3 := (h1.new x).mp (by rw [List.append_nil]; exact hx)
  exact h2.keeps h3.2 (by intro hp; have := hw.lt hp; omega)

theorem new_run (o : Obj) (s : State) :
    new o s = some (.ok s.next, { s with cell := fun x => if x = s.next then some o else s.cell x, next := s.next + 1 }) := rfl

/-- `new BoxInfo`. -/
theorem newInfo_ok {s : State} {parent : Option Addr} {path : List BoxType} {wave : Bool} {b : Addr} {x : BoxObj}
    (hw : WfParent s parent path wave) (hb : s.cell b = some (.box x)) (hb2 : b < s.next)
    (hb3 : ∀ p i, parent = some p → s.cell p = some (.info i) → b ≠ i.box) :
    ∃ s', newInfo parent b s = some (.ok s.next, s') ∧ s'.next = s.next + 1 ∧ s'.boxes = s.boxes ∧
      s'.cell s.next = some (.info ⟨b, path ++ [x.type], []⟩) ∧
      s'.cell b = some (.box (if wave then x.mark else x)) ∧
      ∀ y, y ≠ s.next → y ≠ b → s'.cell y = (match parent with | none => s | some _ => attached s parent [s.next]).cell y := by
  unfold newInfo
  rw [bind_ok (new_run _ s)]
  generalize hs1 : ({ s with cell := fun x => if x = s.next then some (Obj.info { box := b, path := [] }) else s.cell x, next := s.next + 1 } : State) = s1
  have c1 : s1.cell s.next = some (.info { box := b, path := [] }) := by rw [← hs1]; simp
  have c2 : ∀ y, y ≠ s.next → s1.cell y = s.cell y := by intro y hy; rw [← hs1]; simp [hy]
  have c3 : s1.next = s.next + 1 := by rw [← hs1]
  have c4 : s1.boxes = s.boxes := by rw [← hs1]
  clear hs1
  have hbn : b ≠ s.next := by omega
  cases parent with
  | none =>
    obtain ⟨rfl, rfl⟩ := hw
    dsimp only
    have hgt : getType s.next s1 = some (.ok x.type, s1) := by
      unfold getType
      rw [bind_ok (info_ok c1), bind_ok (box_ok (by rw [c2 b hbn]; exact hb)), pure_run]
    refine ⟨s1.set s.next (some (.info ⟨b, [] ++ [x.type], []⟩)), ?_, c3, c4, set_self _ _ _, ?_, ?_⟩
    · show ((info s.next) >>= _) s1 = _
      rw [bind_ok (info_ok c1), bind_ok hgt, bind_ok (setInfo_ok c1), pure_run]
    · rw [set_other _ _ hbn, c2 b hbn, hb]; rfl
    · intro y h1 h2
      rw [set_other _ _ h1, c2 y h1]
  | some p =>
    obtain ⟨i, pb, h1, h2, rfl, h4, h5, h6⟩ := hw
    have hpn : p ≠ s.next := by omega
    have hpb : p ≠ b := by intro h; rw [h, hb] at h1; cases h1
    have hib : i.box ≠ s.next := by omega
    have hip : i.box ≠ p := by intro h; rw [h, h1] at h2; cases h2
    have hbi := hb3 p i rfl h1
    dsimp only
    have d1 : s1.cell p = some (.info i) := by rw [c2 p hpn, h1]
    have e1 := setInfo_ok (i' := { box := b, path := i.path }) c1
    have d2 : (s1.set s.next (some (.info { box := b, path := i.path }))).cell p = some (.info i) := by rw [set_other _ _ hpn, d1]
    generalize hs2 : s1.set s.next (some (.info { box := b, path := i.path })) = s2 at e1 d2
    have d3 : s2.cell s.next = some (.info { box := b, path := i.path }) := by rw [← hs2]; exact set_self _ _ _
    have d4 : ∀ y, y ≠ s.next → s2.cell y = s.cell y := by intro y hy; rw [← hs2, set_other _ _ hy, c2 y hy]
    have d5 : s2.next = s.next + 1 := by rw [← hs2]; exact c3
    have d6 : s2.boxes = s.boxes := by rw [← hs2]; exact c4
    have e2 : addLeaf p s.next s2 = some (.ok (), s2.set p (some (.info { i with leafs := i.leafs ++ [s.next] }))) := by
      unfold addLeaf
      rw [bind_ok (info_ok d2), setInfo_ok d2]
    generalize hs3 : s2.set p (some (.info { i with leafs := i.leafs ++ [s.next] })) = s3 at e2
    have f1 : s3.cell p = some (.info { i with leafs := i.leafs ++ [s.next] }) := by rw [← hs3]; exact set_self _ _ _
    have f2 : s3.cell s.next = some (.info { box := b, path := i.path }) := by rw [← hs3, set_other _ _ hpn.symm, d3]
    have f3 : ∀ y, y ≠ s.next → y ≠ p → s3.cell y = s.cell y := by intro y hy hy2; rw [← hs3, set_other _ _ hy2, d4 y hy]
    have f4 : s3.next = s.next + 1 := by rw [← hs3]; exact d5
    have f5 : s3.boxes = s.boxes := by rw [← hs3]; exact d6
    have e3 : getType p s3 = some (.ok pb.type, s3) := by
      unfold getType
      rw [bind_ok (info_ok f1)]
      dsimp only
      rw [bind_ok (box_ok (by rw [f3 i.box hib hip]; exact h2)), pure_run]
    have f6 : s3.cell b = some (.box x) := by rw [f3 b hbn hpb.symm, hb]
    rw [bind_ok (info_ok d1), bind_ok e1, bind_ok e2, bind_ok e3]
    -- the flag
    have key : ∃ s4, s4.next = s.next + 1 ∧ s4.boxes = s.boxes ∧ s4.cell s.next = some (.info { box := b, path := i.path }) ∧
        s4.cell b = some (.box (if wave then x.mark else x)) ∧
        (∀ y, y ≠ b → s4.cell y = s3.cell y) ∧
        ∀ (k : M Addr), (if pb.type = fourcc "wave" then (do
            let x ← box b
            setBox b x.mark
            k) else k) s3 = k s4 := by
      by_cases hwv : pb.type = fourcc "wave"
      · rw [h4]
        refine ⟨s3.set b (some (.box x.mark)), f4, f5, by rw [set_other _ _ hbn.symm, f2], ?_, ?_, ?_⟩
        · rw [set_self]; simp [hwv]
        · intro y hy; exact set_other _ _ hy
        · intro k
          rw [if_pos hwv, bind_ok (box_ok f6), bind_ok (setBox_ok f6)]
      · rw [h4]
        refine ⟨s3, f4, f5, f2, ?_, fun _ _ => rfl, ?_⟩
        · rw [f6]; simp [hwv]
        · intro k
          rw [if_neg hwv]
    obtain ⟨s4, g1, g2, g3, g4, g5, g6⟩ := key
    refine ⟨s4.set s.next (some (.info ⟨b, i.path ++ [x.type], []⟩)), ?_, g1, g2, set_self _ _ _, ?_, ?_⟩
    · refine Eq.trans (g6 (do
        let i ← info s.next
        let t ← getType s.next
        setInfo s.next { i with path := i.path ++ [t] }
        return s.next)) ?_
      have hgt : getType s.next s4 = some (.ok x.type, s4) := by
        unfold getType
        rw [bind_ok (info_ok g3)]
        dsimp only
        rw [bind_ok (box_ok g4), pure_run]
        cases wave <;> rfl
      rw [bind_ok (info_ok g3), bind_ok hgt, bind_ok (setInfo_ok g3), pure_run]
    · rw [set_other _ _ hbn, g4]
    · intro y hy1 hy2
      rw [set_other _ _ hy1, g5 y hy2]
      by_cases hyp : y = p
      · subst hyp
        rw [f1, attached_self h1]
      · rw [f3 y hy1 hyp, attached_other (by intro e; cases e; exact hyp rfl)]

/-- A new box with what was created below it. -/
theorem Ext.node {s s3 s4 : State} {parent : Option Addr} {us : List ATree} {st : List Addr} {path path' : List BoxType} {wave : Bool}
    {hd : BoxHeader} {x : BoxObj} (hw : WfParent s parent path wave) (hn : s3.next = s.next + 3)
    (hh : s3.cell s.next = some (.header hd)) (hb : s3.cell (s.next + 1) = some (.box x)) (hx : x.header = some s.next)
    (ha : s3.cell (s.next + 2) = some (.info ⟨s.next + 1, path', []⟩))
    (hold : ∀ y, y < s.next → s3.cell y = (attached s parent [s.next + 2]).cell y)
    (hbx : s3.boxes = (attached s parent [s.next + 2]).boxes) (habove : ∀ y, s.next + 3 ≤ y → s3.cell y = s.cell y)
    (h : Ext s3 s4 (some (s.next + 2)) us st) :
    Ext s s4 parent [.node (s.next + 2) (s.next + 1) (some s.next) us] st ∧
      s4.cell (s.next + 2) = some (.info ⟨s.next + 1, path', us.map root⟩) ∧ s4.cell (s.next + 1) = some (.box x) ∧
      s4.cell s.next = some (.header hd) := by
  have hle := h.le
  have e1 : s4.cell (s.next + 2) = some (.info ⟨s.next + 1, path', us.map root⟩) := by
    rw [h.old _ (by omega), attached_self ha]; rfl
  have e2 : s4.cell (s.next + 1) = some (.box x) := by rw [h.keeps (by omega) (by simp), hb]
  have e3 : s4.cell s.next = some (.header hd) := by rw [h.keeps (by omega) (by simp), hh]
  have hmem : ∀ y, y ∈ addrsList [ATree.node (s.next + 2) (s.next + 1) (some s.next) us] ++ st ↔
      y = s.next + 2 ∨ y = s.next + 1 ∨ y = s.next ∨ y ∈ addrsList us ++ st := by
    intro y
    rw [addrsList, addrs, addrsList]
    simp only [List.mem_append, List.mem_cons, Option.toList_some, List.not_mem_nil, or_false]
    constructor
    · rintro ((h | h) | h)
      · rcases h with h | h | h
        · exact .inl h
        · exact .inr (.inl h)
        · exact .inr (.inr (.inl h))
      · exact .inr (.inr (.inr (.inl h)))
      · exact .inr (.inr (.inr (.inr h)))
    · rintro (h | h | h | h | h)
      · exact .inl (.inl (.inl h))
      · exact .inl (.inl (.inr (.inl h)))
      · exact .inl (.inl (.inr (.inr h)))
      · exact .inl (.inr h)
      · exact .inr h
  refine ⟨⟨by omega, ?_, ?_, ⟨⟨⟨path', e1⟩, ⟨x, e2, hx⟩, ?_, h.rep⟩, trivial⟩, ?_, ?_, ?_⟩, e1, e2, e3⟩
  · intro y hy
    rw [h.keeps (by omega) (by intro e; cases e; omega), hold y hy]; rfl
  · rw [h.boxes]
    have : (attached s3 (some (s.next + 2)) (us.map root)).boxes = s3.boxes := by
      unfold attached
      dsimp only
      rw [ha]
      rfl
    rw [this, hbx]; rfl
  · intro y hy
    cases hy
    exact ⟨hd, e3⟩
  · have hnew : ∀ y, y ∈ addrsList us ++ st → s.next + 3 ≤ y := by
      intro y hy
      have := (h.new y).mp hy
      omega
    have h1 : addrsList [ATree.node (s.next + 2) (s.next + 1) (some s.next) us] ++ st =
        (s.next + 2) :: (s.next + 1) :: s.next :: (addrsList us ++ st) := by
      rw [addrsList, addrs, addrsList]; simp
    rw [h1, List.nodup_cons, List.nodup_cons, List.nodup_cons]
    refine ⟨?_, ?_, ?_, h.nodup⟩
    · intro hm
      rcases List.mem_cons.mp hm with e | hm
      · omega
      rcases List.mem_cons.mp hm with e | hm
      · omega
      have := hnew _ hm
      omega
    · intro hm
      rcases List.mem_cons.mp hm with e | hm
      · omega
      have := hnew _ hm
      omega
    · intro hm
      have := hnew _ hm
      omega
  · intro y
    rw [hmem, h.new y, hn]
    omega
  · intro hab
    apply h.above
    intro y hy
    rw [habove y (by omega), hab y (by omega)]

/-- What an exception leaves behind besides the trees: nothing, or the header of a box that does not fit into the file. -/
def Stray (s : State) (st : List Addr) (e : Err) : Prop :=
  st = [] ∨ ∃ h hd, st = [h] ∧ s.cell h = some (.header hd) ∧ e = .exc "corrupt file? box data size is greater than remaining_size"

/-- `readBox` on values and in memory. -/
def BoxSim (r : Option (Run (Nat × Tree × Nat))) (m : Option (Except Err (Nat × Nat) × State)) (s : State) (parent : Option Addr)
    (d : Nat) : Prop :=
  match r with
  | none => m = none
  | some ⟨_, .error e⟩ => ∃ s' ts st, m = some (.error e, s') ∧ Ext s s' parent ts st ∧ Stray s' st e
  | some ⟨_, .ok (size, t, pos)⟩ => ∃ s' u, m = some (.ok (size, pos), s') ∧ Ext s s' parent [u] [] ∧ Holds s' u t ∧ depth u ≤ d

def LoopSim (r : Option (Run (List Tree × Nat))) (m : Option (Except Err Nat × State)) (s : State) (parent : Option Addr)
    (d : Nat) : Prop :=
  match r with
  | none => m = none
  | some ⟨_, .error e⟩ => ∃ s' ts st, m = some (.error e, s') ∧ Ext s s' parent ts st ∧ Stray s' st e
  | some ⟨_, .ok (ts, pos)⟩ => ∃ s' us, m = some (.ok pos, s') ∧ Ext s s' parent us [] ∧ HoldsList s' us ts ∧ depthList us ≤ d

theorem loop_sim {self : Nat → Option (Run (Nat × Tree × Nat))} {selfM : Nat → M (Nat × Nat)} {parent : Option Addr} {path : List BoxType}
    {wave : Bool} {d : Nat}
    (hs : ∀ pos s, WfParent s parent path wave → BoxSim (self pos) (selfM pos s) s parent d) (limit : Nat) :
    ∀ fuel done pos s, WfParent s parent path wave →
      LoopSim (SimpleReader.readLoop self limit fuel done pos) (SimpleReader.readLoopM selfM limit fuel done pos s) s parent d := by
  intro fuel
  induction fuel with
  | zero => intro done pos s hw; exact rfl
  | succ fuel ih =>
    intro done pos s hw
    rw [SimpleReader.readLoop, SimpleReader.readLoopM]
    by_cases hl : limit > done
    · rw [if_pos hl, if_pos hl]
      have h1 := hs pos s hw
      cases hr : self pos with
      | none =>
        rw [hr] at h1
        dsimp only
        exact bind_none h1
      | some r =>
        obtain ⟨vs, res⟩ := r
        rw [hr] at h1
        cases res with
        | error e =>
          obtain ⟨s', ts, st, h2, h3, h4⟩ := h1
          dsimp only
          exact ⟨s', ts, st, bind_error h2, h3, h4⟩
        | ok v =>
          obtain ⟨size, t, pos'⟩ := v
          obtain ⟨s', u, h2, h3, h4, h5⟩ := h1
          have h6 := ih (u64 (done + size)) pos' s' (h3.wf hw)
          dsimp only
          rw [bind_ok h2]
          cases hr2 : SimpleReader.readLoop self limit fuel (u64 (done + size)) pos' with
          | none => rw [hr2] at h6; exact h6
          | some r2 =>
            obtain ⟨ws, res2⟩ := r2
            rw [hr2] at h6
            cases res2 with
            | error e =>
              obtain ⟨s2, ts, st, h7, h8, h9⟩ := h6
              exact ⟨s2, _, st, h7, h3.trans hw h8, h9⟩
            | ok v2 =>
              obtain ⟨ts, pos''⟩ := v2
              obtain ⟨s2, us, h7, h8, h9, h10⟩ := h6
              refine ⟨s2, _, h7, h3.trans hw h8, ?_, ?_⟩
              · have := h3.holds hw h8 (us := [t]) ⟨h4, trivial⟩
                exact ⟨this.1, h9⟩
              · show max (depth u) (depthList us) ≤ d
                omega
    · rw [if_neg hl, if_neg hl]
      exact ⟨s, [], pure_run _ _, .refl s parent, trivial, Nat.zero_le _⟩

/-- Creation of header, box and `BoxInfo`. -/
theorem open_ok (sr : SimpleReader) {s : State} {parent : Option Addr} {path : List BoxType} {wave : Bool} (hd : BoxHeader)
    (hw : WfParent s parent path wave) :
    ∃ s1 s2 s3, new (.header hd) s = some (.ok s.next, s1) ∧ header s.next s1 = some (.ok hd, s1) ∧
      Ext s s1 parent [] [s.next] ∧ s1.cell s.next = some (.header hd) ∧
      sr.getBoxInstanceM s.next s1 = some (.ok (s.next + 1, (sr.classOf hd.type).1), s2) ∧
      (∃ s2', newInfo parent (s.next + 1) s2 = some (.ok (s.next + 2), s2') ∧ SimpleReader.pushBoxM parent (s.next + 2) s2' = some (.ok (), s3)) ∧
      s3.next = s.next + 3 ∧ s3.cell s.next = some (.header hd) ∧
      s3.cell (s.next + 1) = some (.box ⟨(sr.classOf hd.type).2, wave, none, some s.next⟩) ∧
      s3.cell (s.next + 2) = some (.info ⟨s.next + 1, path ++ [(sr.classOf hd.type).2], []⟩) ∧
      (∀ y, y < s.next → s3.cell y = (attached s parent [s.next + 2]).cell y) ∧
      s3.boxes = (attached s parent [s.next + 2]).boxes ∧ ∀ y, s.next + 3 ≤ y → s3.cell y = s.cell y := by
  have e1 := new_run (.header hd) s
  generalize hs1 : ({ s with cell := fun x => if x = s.next then some (Obj.header hd) else s.cell x, next := s.next + 1 } : State) = s1 at e1
  have c1 : s1.cell s.next = some (.header hd) := by rw [← hs1]; simp
  have c2 : ∀ y, y ≠ s.next → s1.cell y = s.cell y := by intro y hy; rw [← hs1]; simp [hy]
  have c3 : s1.next = s.next + 1 := by rw [← hs1]
  have c4 : s1.boxes = s.boxes := by rw [← hs1]
  clear hs1
  have hext : Ext s s1 parent [] [s.next] := by
    refine ⟨by omega, ?_, ?_, trivial, by simp [addrsList], ?_, ?_⟩
    · intro x hx
      rw [List.map_nil, (attached_nil s parent).1, c2 x (by omega)]
    · rw [List.map_nil, (attached_nil s parent).2, c4]
    · intro x
      rw [addrsList]
      simp only [List.nil_append, List.mem_singleton]
      omega
    · intro h x hx
      rw [c2 x (by omega), h x (by omega)]
  -- the box
  have e2 := new_run (.box { type := (sr.classOf hd.type).2 }) s1
  rw [c3] at e2
  generalize hs2 : ({ s1 with cell := fun x => if x = s.next + 1 then some (Obj.box { type := (sr.classOf hd.type).2 }) else s1.cell x,
                              next := s.next + 1 + 1 } : State) = s2 at e2
  have d1 : s2.cell (s.next + 1) = some (.box { type := (sr.classOf hd.type).2 }) := by rw [← hs2]; simp
  have d2 : ∀ y, y ≠ s.next + 1 → s2.cell y = s1.cell y := by intro y hy; rw [← hs2]; simp [hy]
  have d3 : s2.next = s.next + 2 := by rw [← hs2]
  have d4 : s2.boxes = s.boxes := by rw [← hs2]; exact c4
  clear hs2
  have e3 : sr.getBoxInstanceM s.next s1 = some (.ok (s.next + 1, (sr.classOf hd.type).1),
      s2.set (s.next + 1) (some (.box ⟨(sr.classOf hd.type).2, false, none, some s.next⟩))) := by
    unfold SimpleReader.getBoxInstanceM
    rw [bind_ok (header_ok c1), bind_ok e2, bind_ok (box_ok d1), bind_ok (setBox_ok d1), pure_run]
  generalize hs3 : s2.set (s.next + 1) (some (.box ⟨(sr.classOf hd.type).2, false, none, some s.next⟩)) = s3 at e3
  have f1 : s3.cell (s.next + 1) = some (.box ⟨(sr.classOf hd.type).2, false, none, some s.next⟩) := by rw [← hs3]; exact set_self _ _ _
  have f2 : ∀ y, y ≠ s.next + 1 → y ≠ s.next → s3.cell y = s.cell y := by
    intro y h1 h2; rw [← hs3, set_other _ _ h1, d2 y h1, c2 y h2]
  have f3 : s3.cell s.next = some (.header hd) := by rw [← hs3, set_other _ _ (by omega), d2 _ (by omega), c1]
  have f4 : s3.next = s.next + 2 := by rw [← hs3]; exact d3
  have f5 : s3.boxes = s.boxes := by rw [← hs3]; exact d4
  clear hs3
  have hw3 : WfParent s3 parent path wave := by
    cases parent with
    | none => exact hw
    | some p =>
      obtain ⟨i, b, h1, h2, h3, h4, h5, h6⟩ := hw
      exact ⟨i, b, by rw [f2 p (by omega) (by omega)]; exact h1, by rw [f2 i.box (by omega) (by omega)]; exact h2, h3, h4, by omega, by omega⟩
  obtain ⟨s4, g1, g2, g3, g4, g5, g6⟩ := newInfo_ok hw3 f1 (by omega) (by
    intro p i hp hc
    subst hp
    obtain ⟨i', b', h1, h2, -, -, h5, h6⟩ := hw
    rw [f2 p (by omega) (by omega), h1] at hc
    cases hc
    omega)
  rw [f4] at g1 g4 g6
  have hlt : ∀ y, y < s.next → s4.cell y = (match parent with | none => s | some _ => attached s parent [s.next + 2]).cell y := by
    intro y hy
    rw [g6 y (by omega) (by omega)]
    cases parent with
    | none => exact f2 y (by omega) (by omega)
    | some p =>
      dsimp only
      by_cases hyp : y = p
      · subst hyp
        obtain ⟨i, b, h1, -⟩ := hw
        rw [attached_self h1, attached_self (by rw [f2 y (by omega) (by omega)]; exact h1)]
      · rw [attached_other (by intro e; cases e; exact hyp rfl), attached_other (by intro e; cases e; exact hyp rfl),
          f2 y (by omega) (by omega)]
  have hge : ∀ y, s.next + 3 ≤ y → s4.cell y = s.cell y := by
    intro y hy
    rw [g6 y (by omega) (by omega)]
    cases parent with
    | none => exact f2 y (by omega) (by omega)
    | some p =>
      dsimp only
      rw [attached_other (by intro e; cases e; have := hw.lt rfl; omega), f2 y (by omega) (by omega)]
  have hhd : s4.cell s.next = some (.header hd) := by
    rw [g6 s.next (by omega) (by omega)]
    cases parent with
    | none => exact f3
    | some p =>
      dsimp only
      rw [attached_other (by intro e; cases e; have := hw.lt rfl; omega), f3]
  have hbx : s4.cell (s.next + 1) = some (.box ⟨(sr.classOf hd.type).2, wave, none, some s.next⟩) := by
    rw [g5]
    cases wave <;> rfl
  cases parent with
  | none =>
    exact ⟨s1, s3, _, e1, header_ok c1, hext, c1, e3, ⟨s4, g1, rfl⟩, by show s4.next = _; omega, hhd, hbx, g4, hlt,
      by show s4.boxes ++ _ = _; rw [g3, f5]; rfl, hge⟩
  | some p =>
    obtain ⟨i, b, h1, -⟩ := hw
    refine ⟨s1, s3, s4, e1, header_ok c1, hext, c1, e3, ⟨s4, g1, rfl⟩, by omega, hhd, hbx, g4, hlt, ?_, hge⟩
    rw [g3, f5]
    unfold attached
    dsimp only
    rw [h1]
    rfl

theorem BoxSim.err {vs : List BoxHeader} {e : Err} {s s' : State} {parent : Option Addr} {d : Nat} {ts : List ATree} {st : List Addr}
    (h1 : Ext s s' parent ts st) (h2 : Stray s' st e) : BoxSim (some ⟨vs, .error e⟩) (some (.error e, s')) s parent d := ⟨s', ts, st, rfl, h1, h2⟩

/-- The cases of `readContent`. -/
theorem readContent_cases (sr : SimpleReader) (wave : Bool) (hd : BoxHeader) :
    (hd.getDataSize > sub64 (sub64 sr.data.length hd.offset) hd.headerSize ∧
      sr.readContent wave hd = .error (.exc "corrupt file? box data size is greater than remaining_size")) ∨
    (¬ hd.getDataSize > sub64 (sub64 sr.data.length hd.offset) hd.headerSize ∧
      ((∃ e, (BoxData.readData (sr.env hd.offset) (sr.classOf hd.type).2 wave (sr.classOf hd.type).1).runC
          (Reader.new ⟨slice sr.data (hd.offset + hd.headerSize) hd.getDataSize, 0⟩) = .error e ∧ sr.readContent wave hd = .error e) ∨
      ∃ rbits data rd, (BoxData.readData (sr.env hd.offset) (sr.classOf hd.type).2 wave (sr.classOf hd.type).1).runC
          (Reader.new ⟨slice sr.data (hd.offset + hd.headerSize) hd.getDataSize, 0⟩) = .ok ((rbits, data), rd) ∧
        ((sr.file = false ∧ sr.data.length < hd.offset + hd.headerSize + rbits / 8) ∧
            sr.readContent wave hd = .error (.exc "SimpleReader::readBox(): istream::seekg() failed") ∨
          ¬ (sr.file = false ∧ sr.data.length < hd.offset + hd.headerSize + rbits / 8) ∧
            sr.readContent wave hd = .ok (⟨(sr.classOf hd.type).2, data, some hd⟩, rbits / 8)))) := by
  unfold SimpleReader.readContent
  dsimp only
  by_cases hr : hd.getDataSize > sub64 (sub64 sr.data.length hd.offset) hd.headerSize
  · exact .inl ⟨hr, if_pos hr⟩
  refine .inr ⟨hr, ?_⟩
  rw [if_neg hr]
  cases hd2 : (BoxData.readData (sr.env hd.offset) (sr.classOf hd.type).2 wave (sr.classOf hd.type).1).runC
      (Reader.new ⟨slice sr.data (hd.offset + hd.headerSize) hd.getDataSize, 0⟩) with
  | error e => exact .inl ⟨e, rfl, rfl⟩
  | ok v =>
    obtain ⟨⟨rbits, data⟩, rd⟩ := v
    refine .inr ⟨rbits, data, rd, rfl, ?_⟩
    dsimp only
    by_cases hsk : sr.file = false ∧ sr.data.length < hd.offset + hd.headerSize + rbits / 8
    · exact .inl ⟨hsk, if_pos hsk⟩
    · exact .inr ⟨hsk, if_neg hsk⟩

theorem onHeader_ok {α : Type} (hd : BoxHeader) (k : BoxHeader → Option (Run α)) : SimpleReader.onHeader (.ok hd) k = k hd := rfl

theorem readBox_sim (sr : SimpleReader) : ∀ fuel parent path wave pos s, WfParent s parent path wave →
    BoxSim (sr.readBox fuel path wave pos) (sr.readBoxM fuel parent pos s) s parent fuel := by
  intro fuel
  induction fuel with
  | zero => intro parent path wave pos s hw; exact rfl
  | succ fuel ih =>
    intro parent path wave pos s hw
    rw [SimpleReader.readBox, SimpleReader.readBoxM]
    show BoxSim (sr.readBoxBody (sr.readBox fuel) fuel path wave pos) (sr.readBoxBodyM (sr.readBoxM fuel) fuel parent pos s) s parent (fuel + 1)
    unfold SimpleReader.readBoxBody SimpleReader.readBoxBodyM
    generalize read_box_header ⟨sr.data, pos⟩ = rh
    cases rh with
    | error e => exact BoxSim.err (.refl s parent) (.inl rfl)
    | ok hd =>
      obtain ⟨s1, s2, s3, e1, e2, hext, hc1, e3, ⟨s2', e4, e5⟩, hn, hhd, hb, ha, hold, hbx, hab⟩ := open_ok sr hd hw
      rw [bind_ok (show SimpleReader.readHeaderM (.ok hd) s = _ from e1)]
      rw [onHeader_ok]
      unfold SimpleReader.readBoxRestM
      rw [bind_ok e2]
      rcases readContent_cases sr wave hd with ⟨hr, hc⟩ | ⟨hr, hc⟩
      · rw [hc, if_pos hr]
        exact BoxSim.err hext (.inr ⟨_, hd, rfl, hc1, rfl⟩)
      rw [if_neg hr, bind_ok e3]
      dsimp only
      rw [bind_ok e4, bind_ok e5]
      clear hr
      have key : ∀ r, (BoxData.readData (sr.env hd.offset) (sr.classOf hd.type).2 wave (sr.classOf hd.type).1).runC
          (Reader.new ⟨slice sr.data (hd.offset + hd.headerSize) hd.getDataSize, 0⟩) = r →
          sr.readDataM hd.offset (s.next + 1) (sr.classOf hd.type).1 (slice sr.data (hd.offset + hd.headerSize) hd.getDataSize) s3 =
          match r with
          | .error e => some (.error e, s3)
          | .ok ((rbits, data), _) =>
            some (.ok rbits, s3.set (s.next + 1) (some (.box ⟨(sr.classOf hd.type).2, wave, some data, some s.next⟩))) := by
        intro r hr
        unfold SimpleReader.readDataM
        rw [bind_ok (box_ok hb)]
        dsimp only
        rw [hr]
        cases r with
        | error e => rfl
        | ok v =>
          obtain ⟨⟨rbits, data⟩, rd⟩ := v
          dsimp only
          rw [bind_ok (setBox_ok hb), pure_run]
      rcases hc with ⟨e, hd2, hc⟩ | ⟨rbits, data, rd, hd2, hc⟩
      · rw [bind_error (key _ hd2), hc]
        exact BoxSim.err (Ext.node hw hn hhd hb rfl ha hold hbx hab (.refl s3 _)).1 (.inl rfl)
      rw [bind_ok (key _ hd2)]
      generalize hs4 : s3.set (s.next + 1) (some (.box ⟨(sr.classOf hd.type).2, wave, some data, some s.next⟩)) = s4
      have k1 : s4.next = s.next + 3 := by rw [← hs4]; exact hn
      have k2 : s4.cell s.next = some (.header hd) := by rw [← hs4, set_other _ _ (by omega), hhd]
      have k3 : s4.cell (s.next + 1) = some (.box ⟨(sr.classOf hd.type).2, wave, some data, some s.next⟩) := by rw [← hs4]; exact set_self _ _ _
      have k4 : s4.cell (s.next + 2) = some (.info ⟨s.next + 1, path ++ [(sr.classOf hd.type).2], []⟩) := by
        rw [← hs4, set_other _ _ (by omega), ha]
      have k5 : ∀ y, y < s.next → s4.cell y = (attached s parent [s.next + 2]).cell y := by
        intro y hy; rw [← hs4, set_other _ _ (by omega), hold y hy]
      have k6 : s4.boxes = (attached s parent [s.next + 2]).boxes := by rw [← hs4]; exact hbx
      have k7 : ∀ y, s.next + 3 ≤ y → s4.cell y = s.cell y := by
        intro y hy; rw [← hs4, set_other _ _ (by omega), hab y hy]
      clear key hs4 hd2
      rcases hc with ⟨hsk, hc⟩ | ⟨hsk, hc⟩
      · rw [hc, if_pos hsk]
        exact BoxSim.err (Ext.node hw k1 k2 k3 rfl k4 k5 k6 k7 (.refl s4 _)).1 (.inl rfl)
      rw [hc, if_neg hsk]
      have hw4 : WfParent s4 (some (s.next + 2)) (path ++ [(sr.classOf hd.type).2]) (decide ((sr.classOf hd.type).2 = fourcc "wave")) :=
        ⟨_, _, k4, k3, rfl, rfl, by omega, by dsimp only; omega⟩
      have hl := loop_sim (fun pos s => ih (some _) _ _ pos s) hd.getDataSize fuel (rbits / 8) (hd.offset + hd.headerSize + rbits / 8) s4 hw4
      dsimp only
      clear hc hsk
      generalize SimpleReader.readLoop _ hd.getDataSize fuel (rbits / 8) (hd.offset + hd.headerSize + rbits / 8) = r at hl ⊢
      rcases r with _ | ⟨vs, e | ⟨leafs, pos'⟩⟩
      · exact bind_none hl
      · obtain ⟨s5, us, st, l1, l2, l3⟩ := hl
        rw [bind_error l1]
        exact BoxSim.err (Ext.node hw k1 k2 k3 rfl k4 k5 k6 k7 l2).1 l3
      · obtain ⟨s5, us, l1, l2, l3, l4⟩ := hl
        obtain ⟨m1, m2, m3, m4⟩ := Ext.node hw k1 k2 k3 rfl k4 k5 k6 k7 l2
        rw [bind_ok l1, pure_run]
        refine ⟨s5, _, rfl, m1, ⟨m2, ⟨wave, m3⟩, m4, l3⟩, ?_⟩
        rw [depth]
        omega

end Mem
end Mp4
