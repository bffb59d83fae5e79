import Verif.Lemmas.MemoryTree
import Verif.Spec.Memory

/-! # Trees in memory: creation -/

namespace Mp4
open Mem Mem.ATree
namespace Mem

/-! ### The members of a writer stay -/

/-- A piece of program that does not assign to `m_moov_box_info` and `m_mvhd_box`. -/
def Keeps {α : Type} (m : M α) : Prop := ∀ s r s', m s = some (r, s') → s'.moov = s.moov ∧ s'.mvhd = s.mvhd

theorem Keeps.bind {α β : Type} {m : M α} {k : α → M β} (h1 : Keeps m) (h2 : ∀ a, Keeps (k a)) : Keeps (m >>= k) := by
  intro s r s' h
  cases hm : m s with
  | none => rw [bind_none hm] at h; cases h
  | some x =>
    obtain ⟨v, s1⟩ := x
    cases v with
    | error e => rw [bind_error hm] at h; cases h; exact h1 _ _ _ hm
    | ok a =>
      rw [bind_ok hm] at h
      obtain ⟨a1, a2⟩ := h1 _ _ _ hm
      obtain ⟨b1, b2⟩ := h2 a _ _ _ h
      exact ⟨b1.trans a1, b2.trans a2⟩
theorem Keeps.pure {α : Type} (a : α) : Keeps (pure a : M α) := by
  intro s r s' h; rw [pure_run] at h; cases h; exact ⟨rfl, rfl⟩
theorem Keeps.new (o : Obj) : Keeps (new o) := by
  intro s r s' h; rw [new_run] at h; cases h; exact ⟨rfl, rfl⟩
theorem Keeps.box (a : Nat) : Keeps (box a) := by
  intro s r s' h; unfold Mem.box at h; split at h <;> (cases h; exact ⟨rfl, rfl⟩)
theorem Keeps.info (a : Nat) : Keeps (info a) := by
  intro s r s' h; unfold Mem.info at h; split at h <;> (cases h; exact ⟨rfl, rfl⟩)
theorem Keeps.setBox (a : Nat) (b : BoxObj) : Keeps (setBox a b) := by
  refine (Keeps.box a).bind fun _ => ?_
  intro s r s' h; cases h; exact ⟨rfl, rfl⟩
theorem Keeps.setInfo (a : Nat) (b : InfoObj) : Keeps (setInfo a b) := by
  refine (Keeps.info a).bind fun _ => ?_
  intro s r s' h; cases h; exact ⟨rfl, rfl⟩
theorem Keeps.getType (a : Nat) : Keeps (getType a) :=
  (Keeps.info a).bind fun _ => (Keeps.box _).bind fun _ => .pure _
theorem Keeps.addLeaf (a l : Nat) : Keeps (addLeaf a l) :=
  (Keeps.info a).bind fun _ => .setInfo _ _

theorem newInfo_keeps (parent : Option Nat) (b : Nat) : Keeps (newInfo parent b) := by
  unfold newInfo
  refine (Keeps.new _).bind fun a => ?_
  have last : Keeps (do
      let i ← Mem.info a
      let t ← Mem.getType a
      Mem.setInfo a { i with path := i.path ++ [t] }
      return a) :=
    (Keeps.info a).bind fun i => (Keeps.getType a).bind fun t => (Keeps.setInfo _ _).bind fun _ => .pure _
  cases parent with
  | none => exact last
  | some p =>
    refine (Keeps.info p).bind fun i => (Keeps.setInfo _ _).bind fun _ => (Keeps.addLeaf _ _).bind fun _ => (Keeps.getType _).bind fun t => ?_
    split
    · exact (Keeps.box _).bind fun _ => (Keeps.setBox _ _).bind fun _ => last
    · exact last

end Mem

namespace Mem

/-- From `s` to `s'` the trees `ts` were created, with these values, below the parent; nothing else happened. -/
structure Born (s s' : State) (parent : Option Nat) (ts : List ATree) (us : List Tree) : Prop where
  le : s.next ≤ s'.next
  old : ∀ x, x < s.next → s'.cell x = (attached s parent (ts.map root)).cell x
  above : ∀ x, s'.next ≤ x → s'.cell x = s.cell x
  holds : HoldsList s' ts us
  nodup : (addrsList ts).Nodup
  new : ∀ x, x ∈ addrsList ts ↔ s.next ≤ x ∧ x < s'.next
  moov : s'.moov = s.moov
  mvhd : s'.mvhd = s.mvhd

theorem Born.refl (s : State) (parent : Option Nat) : Born s s parent [] [] := by
  refine ⟨Nat.le_refl _, fun x _ => by rw [List.map_nil, (attached_nil s parent).1], fun _ _ => rfl, trivial, List.nodup_nil, fun x => ?_, rfl, rfl⟩
  show x ∈ [] ↔ _
  simp only [List.not_mem_nil, false_iff]
  omega

theorem Born.keeps {s s' : State} {parent : Option Nat} {ts : List ATree} {us : List Tree} (h : Born s s' parent ts us) {x : Nat}
    (hx : x < s.next) (hp : parent ≠ some x) : s'.cell x = s.cell x := by
  rw [h.old x hx, attached_other hp]

theorem Born.wf {s s' : State} {parent : Option Nat} {ts : List ATree} {us : List Tree} {path : List BoxType} {wave : Bool}
    (h : Born s s' parent ts us) (hw : WfParent s parent path wave) : WfParent s' parent path wave := by
  cases parent with
  | none => exact hw
  | some p =>
    obtain ⟨i, b, h1, h2, h3, h4, h5, h6⟩ := hw
    have hle := h.le
    refine ⟨{ i with leafs := i.leafs ++ ts.map root }, b, ?_, ?_, h3, h4, by omega, Nat.lt_of_lt_of_le h6 hle⟩
    · rw [h.old p h5, attached_self h1]
    · show s'.cell i.box = _
      rw [h.keeps h6 (by intro e; cases e; rw [h1] at h2; cases h2), h2]

theorem Born.trans {s s1 s2 : State} {parent : Option Nat} {ts1 ts2 : List ATree} {us1 us2 : List Tree} {path : List BoxType} {wave : Bool}
    (hw : WfParent s parent path wave) (h1 : Born s s1 parent ts1 us1) (h2 : Born s1 s2 parent ts2 us2) :
    Born s s2 parent (ts1 ++ ts2) (us1 ++ us2) := by
  have hle := h1.le
  have hle2 := h2.le
  refine ⟨by omega, ?_, ?_, ?_, ?_, ?_, by rw [h2.moov, h1.moov], by rw [h2.mvhd, h1.mvhd]⟩
  · intro x hx
    rw [h2.old x (by omega)]
    by_cases hp : parent = some x
    · subst hp
      obtain ⟨i, b, c1, -⟩ := hw
      have c2 := h1.old x hx
      rw [attached_self c1] at c2
      rw [attached_self c2, attached_self c1]
      simp
    · rw [attached_other hp, attached_other hp, h1.keeps hx hp]
  · intro x hx
    rw [h2.above x hx, h1.above x (by omega)]
  · refine HoldsList_append (HoldsList.frame _ _ h1.holds fun x hx => ?_) h2.holds
    have := (h1.new x).mp hx
    exact h2.keeps this.2 (by intro hp; have := hw.lt hp; omega)
  · rw [addrsList_append, List.nodup_append]
    refine ⟨h1.nodup, h2.nodup, ?_⟩
    intro x hx y hy e
    have h3 := (h1.new x).mp hx
    have h4 := (h2.new y).mp hy
    omega
  · intro x
    rw [addrsList_append, List.mem_append, h1.new, h2.new]
    omega

/-- A new box with what was created below it. -/
theorem Born.node {s s2 s3 : State} {parent : Option Nat} {ts : List ATree} {us : List Tree} {path' : List BoxType} {bx : Box} {w : Bool}
    (hn : s2.next = s.next + 2) (hb : s2.cell s.next = some (.box ⟨bx.type, w, some bx.data, none⟩)) (hbh : bx.header = none)
    (ha : s2.cell (s.next + 1) = some (.info ⟨s.next, path', []⟩))
    (hold : ∀ y, y ≠ s.next + 1 → y ≠ s.next → s2.cell y = (attached s parent [s.next + 1]).cell y)
    (hp : ∀ p, parent = some p → p < s.next) (hm : s2.moov = s.moov) (hv : s2.mvhd = s.mvhd)
    (h : Born s2 s3 (some (s.next + 1)) ts us) : Born s s3 parent [.node (s.next + 1) s.next none ts] [.node bx path' us] := by
  have hle := h.le
  have e1 : s3.cell (s.next + 1) = some (.info ⟨s.next, path', ts.map root⟩) := by
    rw [h.old _ (by omega), attached_self ha]; rfl
  have e2 : s3.cell s.next = some (.box ⟨bx.type, w, some bx.data, none⟩) := by rw [h.keeps (by omega) (by simp), hb]
  have hmem : ∀ y, y ∈ addrsList [ATree.node (s.next + 1) s.next none ts] ↔ y = s.next + 1 ∨ y = s.next ∨ y ∈ addrsList ts := by
    intro y
    rw [addrsList, addrs, addrsList]
    simp
  refine ⟨by omega, ?_, ?_, ⟨holds_node.mpr ⟨e1, ⟨⟨w, e2⟩, by rw [hbh]; trivial⟩, h.holds⟩, trivial⟩, ?_, ?_, by rw [h.moov, hm], by rw [h.mvhd, hv]⟩
  · intro y hy
    rw [h.keeps (by omega) (by intro e; cases e; omega), hold y (by omega) (by omega)]; rfl
  · intro y hy
    rw [h.above y hy, hold y (by omega) (by omega), attached_other]
    intro e
    have := hp y e
    omega
  · have hnew : ∀ y, y ∈ addrsList ts → s.next + 2 ≤ y := by
      intro y hy
      have := (h.new y).mp hy
      omega
    have h1 : addrsList [ATree.node (s.next + 1) s.next none ts] = (s.next + 1) :: s.next :: addrsList ts := by
      rw [addrsList, addrs, addrsList]; simp
    rw [h1, List.nodup_cons, List.nodup_cons]
    refine ⟨?_, ?_, h.nodup⟩
    · intro hm
      rcases List.mem_cons.mp hm with e | hm
      · omega
      have := hnew _ hm
      omega
    · intro hm
      have := hnew _ hm
      omega
  · intro y
    rw [hmem, h.new y, hn]
    omega

mutual
theorem build_sim : ∀ (u : Tree) (s : State) (parent : Option Nat) (path : List BoxType) (wave : Bool), WfParent s parent path wave →
    ∃ s' t, buildM parent u s = some (.ok (root t), s') ∧ Born s s' parent [t] [u.placed path wave] ∧ depth t = u.depth ∧
      ∃ ts, t = .node (s.next + 1) s.next none ts
  | .node bx p0 ls, s, parent, path, wave, hw => by
    rw [buildM, bind_ok (new_run _ s)]
    generalize hs1 : ({ s with cell := fun x => if x = s.next then some (Obj.box { type := bx.type, data := some bx.data }) else s.cell x, next := s.next + 1 } : State) = s1
    have c1 : s1.cell s.next = some (.box { type := bx.type, data := some bx.data }) := by rw [← hs1]; simp
    have c2 : ∀ y, y ≠ s.next → s1.cell y = s.cell y := by intro y hy; rw [← hs1]; simp [hy]
    have c3 : s1.next = s.next + 1 := by rw [← hs1]
    have c5 : s1.moov = s.moov := by rw [← hs1]
    have c6 : s1.mvhd = s.mvhd := by rw [← hs1]
    clear hs1
    have hp : ∀ p, parent = some p → p < s.next := fun p h => hw.lt h
    have hw1 : WfParent s1 parent path wave := by
      cases parent with
      | none => exact hw
      | some p =>
        obtain ⟨i, b, h1, h2, h3, h4, h5, h6⟩ := hw
        exact ⟨i, b, by rw [c2 p (by omega), h1], by rw [c2 _ (Nat.ne_of_lt h6), h2], h3, h4, by omega, Nat.lt_of_lt_of_le h6 (by omega)⟩
    obtain ⟨s2, d1, d2, -, d4, d5, d6⟩ := newInfo_ok hw1 c1 (by omega) (by
      intro p i hpp hc
      subst hpp
      obtain ⟨i', b, h1, h2, -, -, h5, h6⟩ := hw
      rw [c2 p (by omega), h1] at hc
      cases hc
      exact (Nat.ne_of_lt h6).symm)
    obtain ⟨d7, d8⟩ := newInfo_keeps _ _ _ _ _ d1
    rw [c3] at d1 d2 d4 d6
    have hs2b : s2.cell s.next = some (.box ⟨bx.type, wave, some (if wave then marked bx.data else bx.data), none⟩) := by
      rw [d5]; cases wave <;> rfl
    have hold : ∀ y, y ≠ s.next + 1 → y ≠ s.next → s2.cell y = (attached s parent [s.next + 1]).cell y := by
      intro y h1 h2
      rw [d6 y h1 h2]
      cases parent with
      | none => exact c2 y h2
      | some q =>
        obtain ⟨i, b, k1, -, -, -, k5, -⟩ := hw
        dsimp only
        by_cases e : y = q
        · subst e
          rw [attached_self k1, attached_self (by rw [c2 y h2, k1])]
        · have : (some q : Option Nat) ≠ some y := by intro h; cases h; exact e rfl
          rw [attached_other this, attached_other this, c2 y h2]
    have hw2 : WfParent s2 (some (s.next + 1)) (path ++ [bx.type]) (decide (bx.type = fourcc "wave")) :=
      ⟨_, _, d4, hs2b, rfl, rfl, by omega, by show s.next < s2.next; omega⟩
    obtain ⟨s3, ts, e1, e2, e3⟩ := builds_sim ls s2 (s.next + 1) _ _ hw2
    refine ⟨s3, .node (s.next + 1) s.next none ts, ?_, ?_, ?_, ts, rfl⟩
    · rw [bind_ok d1, bind_ok e1, pure_run]; rfl
    · rw [Tree.placed]
      exact Born.node (bx := ⟨bx.type, if wave then marked bx.data else bx.data, none⟩) (w := wave) (by omega) hs2b rfl d4 hold hp
        (by rw [d7, c5]) (by rw [d8, c6]) e2
    · rw [depth, Tree.depth, e3]
theorem builds_sim : ∀ (us : List Tree) (s : State) (a : Nat) (path : List BoxType) (wave : Bool), WfParent s (some a) path wave →
    ∃ s' ts, buildLeafsM a us s = some (.ok (), s') ∧ Born s s' (some a) ts (Tree.placedList path wave us) ∧
      depthList ts = Tree.depthList us
  | [], s, a, path, wave, hw => by
    rw [buildLeafsM, Tree.placedList]
    exact ⟨s, [], rfl, .refl _ _, rfl⟩
  | u :: us, s, a, path, wave, hw => by
    obtain ⟨s1, t, a1, a2, a3, -⟩ := build_sim u s (some a) path wave hw
    obtain ⟨s2, ts, b1, b2, b3⟩ := builds_sim us s1 a path wave (a2.wf hw)
    refine ⟨s2, t :: ts, ?_, ?_, ?_⟩
    · rw [buildLeafsM, bind_ok a1, b1]
    · rw [Tree.placedList]
      exact Born.trans hw a2 b2
    · rw [depthList, Tree.depthList, a3, b3]
end

/-! ### The trees of the writers -/

end Mem

/-- Building does not change what is given for building, and the depth is bounded. -/
def Mk.Good (m : Mk) (d : Nat) : Prop := ∀ q path, (m q).placed path false = m path ∧ (m q).depth ≤ d

theorem Mk.good_info (type : BoxType) (data : BoxData) (children : List Mk) (d : Nat) (h : ∀ m ∈ children, Mk.Good m d)
    (hw : type ≠ fourcc "wave") : Mk.Good (mkInfo type data children) (d + 1) := by
  intro q path
  unfold mkInfo
  rw [Tree.placed, Tree.depth]
  have h1 : ∀ (l : List Mk), (∀ m ∈ l, Mk.Good m d) → ∀ q path, Tree.placedList path false (l.map (· q)) = l.map (· path) ∧
      Tree.depthList (l.map (· q)) ≤ d := by
    intro l
    induction l with
    | nil => intro _ q path; exact ⟨rfl, Nat.zero_le _⟩
    | cons m l ih =>
      intro hl q path
      obtain ⟨i1, i2⟩ := ih (fun m hm => hl m (List.mem_cons_of_mem _ hm)) q path
      obtain ⟨j1, j2⟩ := hl m (List.mem_cons_self ..) q path
      rw [List.map_cons, List.map_cons, Tree.placedList, Tree.depthList, i1, j1]
      exact ⟨rfl, by omega⟩
  obtain ⟨k1, k2⟩ := h1 children h (q ++ [type]) (path ++ [type])
  refine ⟨?_, by omega⟩
  show Tree.node ⟨type, data, none⟩ _ (Tree.placedList _ (decide (type = fourcc "wave")) _) = _
  rw [decide_eq_false hw, k1]

theorem Mk.Good.mono {m : Mk} {d e : Nat} (h : Mk.Good m d) (hde : d ≤ e) : Mk.Good m e :=
  fun q path => ⟨(h q path).1, Nat.le_trans (h q path).2 hde⟩

theorem Mk.good_leaf (type : BoxType) (data : BoxData) (d : Nat) (hw : type ≠ fourcc "wave") : Mk.Good (mkInfo type data []) (d + 1) :=
  Mk.good_info type data [] d (by intro m hm; cases hm) hw

theorem Mk.udta_good : Mk.Good udta 5 := by
  have hne : ∀ t : BoxType, decide (t = fourcc "wave") = false → t ≠ fourcc "wave" := fun t h => of_decide_eq_false h
  unfold udta
  refine Mk.good_info _ _ _ 4 ?_ (hne _ (by decide +kernel))
  simp only [List.forall_mem_cons, List.not_mem_nil, false_implies, implies_true, and_true]
  refine Mk.good_info _ _ _ 3 ?_ (hne _ (by decide +kernel))
  simp only [List.forall_mem_cons, List.not_mem_nil, false_implies, implies_true, and_true]
  refine ⟨Mk.good_leaf _ _ 2 (hne _ (by decide +kernel)), Mk.good_info _ _ _ 2 ?_ (hne _ (by decide +kernel))⟩
  simp only [List.forall_mem_cons, List.not_mem_nil, false_implies, implies_true, and_true]
  refine Mk.good_info _ _ _ 1 ?_ (hne _ (by decide +kernel))
  simp only [List.forall_mem_cons, List.not_mem_nil, false_implies, implies_true, and_true]
  exact Mk.good_leaf _ _ 0 (hne _ (by decide +kernel))

theorem Mk.stsd_good (c : Codec) (track_id timescale : BitVec 32) : Mk.Good (c.stsd track_id timescale) 3 := by
  have hne : ∀ t : BoxType, decide (t = fourcc "wave") = false → t ≠ fourcc "wave" := fun t h => of_decide_eq_false h
  unfold Codec.stsd
  refine Mk.good_info _ _ _ 2 ?_ (hne _ (by decide +kernel))
  simp only [List.forall_mem_cons, List.not_mem_nil, false_implies, implies_true, and_true]
  cases c with
  | h264 width height cfg =>
    refine Mk.good_info _ _ _ 1 ?_ (hne _ (by decide +kernel))
    simp only [List.forall_mem_cons, List.not_mem_nil, false_implies, implies_true, and_true]
    exact Mk.good_leaf _ _ 0 (hne _ (by decide +kernel))
  | vpx vp8 width height max_bitrate avg_bitrate =>
    refine Mk.good_info _ _ _ 1 ?_ ?_
    · simp only [List.forall_mem_cons, List.not_mem_nil, false_implies, implies_true, and_true]
      exact ⟨Mk.good_leaf _ _ 0 (hne _ (by decide +kernel)), Mk.good_leaf _ _ 0 (hne _ (by decide +kernel)),
        Mk.good_leaf _ _ 0 (hne _ (by decide +kernel)), Mk.good_leaf _ _ 0 (hne _ (by decide +kernel))⟩
    · cases vp8
      · exact hne _ (by decide +kernel)
      · exact hne _ (by decide +kernel)
  | av1 width height cfg =>
    refine Mk.good_info _ _ _ 1 ?_ (hne _ (by decide +kernel))
    simp only [List.forall_mem_cons, List.not_mem_nil, false_implies, implies_true, and_true]
    exact Mk.good_leaf _ _ 0 (hne _ (by decide +kernel))
  | opus pre_skip r =>
    refine Mk.good_info _ _ _ 1 ?_ (hne _ (by decide +kernel))
    simp only [List.forall_mem_cons, List.not_mem_nil, false_implies, implies_true, and_true]
    exact Mk.good_leaf _ _ 0 (hne _ (by decide +kernel))
  | aac buffer_size_db max_bitrate avg_bitrate =>
    refine Mk.good_info _ _ _ 1 ?_ (hne _ (by decide +kernel))
    simp only [List.forall_mem_cons, List.not_mem_nil, false_implies, implies_true, and_true]
    exact ⟨Mk.good_leaf _ _ 0 (hne _ (by decide +kernel)), Mk.good_leaf _ _ 0 (hne _ (by decide +kernel))⟩
  | mp3 buffer_size_db max_bitrate avg_bitrate =>
    refine Mk.good_info _ _ _ 1 ?_ (hne _ (by decide +kernel))
    simp only [List.forall_mem_cons, List.not_mem_nil, false_implies, implies_true, and_true]
    exact Mk.good_leaf _ _ 0 (hne _ (by decide +kernel))

theorem Mk.stblChildren_good (t : Track) : ∀ m ∈ t.stblChildren, Mk.Good m 3 := by
  have hne : ∀ t : BoxType, decide (t = fourcc "wave") = false → t ≠ fourcc "wave" := fun t h => of_decide_eq_false h
  have h1 := Mk.stsd_good t.codec t.track_id t.timescale
  have h2 : Mk.Good t.stts 3 := Mk.good_leaf _ _ 2 (hne _ (by decide +kernel))
  have h3 : Mk.Good t.stss 3 := Mk.good_leaf _ _ 2 (hne _ (by decide +kernel))
  have h4 : Mk.Good t.stsc 3 := Mk.good_leaf _ _ 2 (hne _ (by decide +kernel))
  have h5 : Mk.Good t.stsz 3 := Mk.good_leaf _ _ 2 (hne _ (by decide +kernel))
  have h6 : Mk.Good t.offsets 3 := by
    refine Mk.good_leaf _ _ 2 ?_
    unfold make_offset_box
    dsimp only
    have e1 : fourcc "co64" ≠ fourcc "wave" := by decide +kernel
    have e2 : fourcc "stco" ≠ fourcc "wave" := by decide +kernel
    split <;> split <;> first | exact e1 | exact e2
  have h7 : ∀ r, ∀ m ∈ t.rollGroups r, Mk.Good m 3 := by
    intro r
    unfold Track.rollGroups
    simp only [List.forall_mem_cons, List.not_mem_nil, false_implies, implies_true, and_true]
    exact ⟨Mk.good_leaf _ _ 2 (hne _ (by decide +kernel)), Mk.good_leaf _ _ 2 (hne _ (by decide +kernel))⟩
  unfold Track.stblChildren
  dsimp only
  split <;> (simp only [List.cons_append, List.nil_append, List.forall_mem_cons, List.not_mem_nil, false_implies, implies_true, and_true]) <;>
    first
    | exact ⟨h1, h2, h3, h4, h5, h6⟩
    | exact ⟨h1, h2, h4, h5, h6⟩
    | exact ⟨h1, h2, h4, h5, h6, h7 _⟩

theorem Mk.trak_good (t : Track) : Mk.Good t.trak 7 := by
  have hne : ∀ t : BoxType, decide (t = fourcc "wave") = false → t ≠ fourcc "wave" := fun t h => of_decide_eq_false h
  unfold Track.trak
  refine Mk.good_info _ _ _ 6 ?_ (hne _ (by decide +kernel))
  simp only [List.forall_mem_cons, List.not_mem_nil, false_implies, implies_true, and_true]
  refine ⟨Mk.good_leaf _ _ 5 (hne _ (by decide +kernel)), Mk.good_info _ _ _ 5 ?_ (hne _ (by decide +kernel)),
    Mk.good_info _ _ _ 5 ?_ (hne _ (by decide +kernel))⟩
  · simp only [List.forall_mem_cons, List.not_mem_nil, false_implies, implies_true, and_true]
    exact Mk.good_leaf _ _ 4 (hne _ (by decide +kernel))
  · simp only [List.forall_mem_cons, List.not_mem_nil, false_implies, implies_true, and_true]
    refine ⟨Mk.good_leaf _ _ 4 (hne _ (by decide +kernel)), Mk.good_leaf _ _ 4 (hne _ (by decide +kernel)),
      Mk.good_info _ _ _ 4 ?_ (hne _ (by decide +kernel))⟩
    simp only [List.forall_mem_cons, List.not_mem_nil, false_implies, implies_true, and_true]
    refine ⟨?_, ?_, Mk.good_info _ _ _ 3 (Mk.stblChildren_good t) (hne _ (by decide +kernel))⟩
    · unfold Track.mediaHeader
      split
      · exact Mk.good_leaf _ _ 3 (hne _ (by decide +kernel))
      · exact Mk.good_leaf _ _ 3 (hne _ (by decide +kernel))
    · unfold Track.dinf
      refine Mk.good_info _ _ _ 3 ?_ (hne _ (by decide +kernel))
      simp only [List.forall_mem_cons, List.not_mem_nil, false_implies, implies_true, and_true]
      refine Mk.good_info _ _ _ 2 ?_ (hne _ (by decide +kernel))
      simp only [List.forall_mem_cons, List.not_mem_nil, false_implies, implies_true, and_true]
      exact Mk.good_leaf _ _ 1 (hne _ (by decide +kernel))

end Mp4
