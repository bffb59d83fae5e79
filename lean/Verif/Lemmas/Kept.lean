import Verif.Props.Stored
import Verif.Props.Movie

/-! # What a reader keeps of a tree

`Tree.Kept t t'`: `t'` has the shape and types of `t` and in each box what a reader has after reading it. -/

namespace Mp4
namespace Tree

mutual
def Kept : Tree → Tree → Prop
  | .node b _ ls, .node b' _ ls' => b'.type = b.type ∧ (∃ env, b'.data = b.data.stored env b.type) ∧ KeptList ls ls'
def KeptList : List Tree → List Tree → Prop
  | [], [] => True
  | t :: ts, t' :: ts' => Kept t t' ∧ KeptList ts ts'
  | _, _ => False
end

/-- A box the reader knows and that survives wherever it is. -/
def FitBox (b : Box) (leaf : Prop) : Prop :=
  (∃ d, stdBoxMap.find b.type = some d ∧ d.factory = b.data.kind) ∧ b.type ≠ fourcc "wave" ∧
  ∀ env, b.data.Survives env b.type (false = true) leaf

mutual
def Fit : Tree → Prop
  | .node b _ ls => FitBox b (ls = []) ∧ FitList ls
def FitList : List Tree → Prop
  | [] => True
  | t :: ts => Fit t ∧ FitList ts
end

theorem fitBox_type {b : Box} {leaf : Prop} (h : FitBox b leaf) (sr : SimpleReader) (hm : sr.map = stdBoxMap) : sr.typeRead b.type = b.type := by
  obtain ⟨⟨d, h1, -⟩, -⟩ := h
  unfold SimpleReader.typeRead
  rw [hm, h1]; rfl

mutual
theorem Fit.surviving (sr : SimpleReader) (hm : sr.map = stdBoxMap) : ∀ (t : Tree) (o : Nat), t.Fit → Surviving sr false o t
  | .node b p ls, o, h => by
    obtain ⟨h1, h2⟩ := h
    have ht := fitBox_type h1 sr hm
    obtain ⟨⟨d, k1, k2⟩, k3, k4⟩ := h1
    refine ⟨.inl ⟨d, by rw [hm]; exact k1, k2⟩, k4 _, ?_⟩
    have : decide (sr.typeRead b.type = fourcc "wave") = false := by rw [ht]; simpa using k3
    rw [this]
    exact FitList.surviving sr hm ls _ h2
theorem FitList.surviving (sr : SimpleReader) (hm : sr.map = stdBoxMap) : ∀ (ts : List Tree) (o : Nat), FitList ts → SurvivingList sr false o ts
  | [], _, _ => trivial
  | t :: ts, o, h => ⟨Fit.surviving sr hm t o h.1, FitList.surviving sr hm ts _ h.2⟩
end

mutual
theorem Fit.kept (sr : SimpleReader) (hm : sr.map = stdBoxMap) : ∀ (t : Tree) (path : List BoxType) (o : Nat), t.Fit → Kept t (t.readBack sr path o)
  | .node b p ls, path, o, h => by
    rw [readBack]
    exact ⟨fitBox_type h.1 sr hm, ⟨_, rfl⟩, FitList.kept sr hm ls _ _ h.2⟩
theorem FitList.kept (sr : SimpleReader) (hm : sr.map = stdBoxMap) : ∀ (ts : List Tree) (path : List BoxType) (o : Nat), FitList ts →
    KeptList ts (readBackList sr path o ts)
  | [], _, _, _ => by rw [readBackList]; trivial
  | t :: ts, path, o, h => by
    rw [readBackList]
    exact ⟨Fit.kept sr hm t path o h.1, FitList.kept sr hm ts _ _ h.2⟩
end

theorem Kept.type {t t' : Tree} (h : Kept t t') : t'.box.type = t.box.type := by
  cases t; cases t'; exact h.1

theorem Kept.data {t t' : Tree} (h : Kept t t') : ∃ env, t'.box.data = t.box.data.stored env t.box.type := by
  cases t; cases t'; exact h.2.1

theorem Kept.leafs {t t' : Tree} (h : Kept t t') : KeptList t.leafs t'.leafs := by
  cases t; cases t'; exact h.2.2

theorem KeptList.find {ty : BoxType} : ∀ {ts ts' : List Tree}, KeptList ts ts' →
    (∃ c c', ts.find? (fun c => decide (c.box.type = ty)) = some c ∧ ts'.find? (fun c => decide (c.box.type = ty)) = some c' ∧ Kept c c') ∨
    (ts.find? (fun c => decide (c.box.type = ty)) = none ∧ ts'.find? (fun c => decide (c.box.type = ty)) = none)
  | [], [], _ => .inr ⟨rfl, rfl⟩
  | t :: ts, t' :: ts', h => by
    have h0 := h.1.type
    by_cases ht : t.box.type = ty
    · refine .inl ⟨t, t', ?_, ?_, h.1⟩
      · rw [List.find?_cons_of_pos (by simpa using ht)]
      · rw [List.find?_cons_of_pos (by rw [h0]; simpa using ht)]
    · rw [List.find?_cons_of_neg (by simpa using ht), List.find?_cons_of_neg (by rw [h0]; simpa using ht)]
      exact KeptList.find h.2

theorem KeptList.filter (ty : BoxType) : ∀ {ts ts' : List Tree}, KeptList ts ts' →
    KeptList (ts.filter (fun c => decide (c.box.type = ty))) (ts'.filter (fun c => decide (c.box.type = ty)))
  | [], [], _ => trivial
  | t :: ts, t' :: ts', h => by
    have h0 := h.1.type
    have := KeptList.filter ty h.2
    by_cases ht : t.box.type = ty
    · rw [List.filter_cons_of_pos (by simpa using ht), List.filter_cons_of_pos (by rw [h0]; simpa using ht)]
      exact ⟨h.1, this⟩
    · rw [List.filter_cons_of_neg (by simpa using ht), List.filter_cons_of_neg (by rw [h0]; simpa using ht)]
      exact this

theorem KeptList.length : ∀ {ts ts' : List Tree}, KeptList ts ts' → ts'.length = ts.length
  | [], [], _ => rfl
  | _ :: _, _ :: _, h => by rw [List.length_cons, List.length_cons, KeptList.length h.2]

theorem KeptList.get : ∀ {ts ts' : List Tree}, KeptList ts ts' → ∀ {i : Nat} {t' : Tree}, ts'[i]? = some t' →
    ∃ t, ts[i]? = some t ∧ Kept t t'
  | [], [], _, i, t', h => by simp at h
  | t :: ts, u :: us, h, i, t', hi => by
    cases i with
    | zero => cases hi; exact ⟨t, rfl, h.1⟩
    | succ i => exact KeptList.get (i := i) h.2 (by simpa using hi)

theorem Kept.child {t t' : Tree} (h : Kept t t') (ty : BoxType) :
    (∃ c c', Spec.child ty t = some c ∧ Spec.child ty t' = some c' ∧ Kept c c') ∨ (Spec.child ty t = none ∧ Spec.child ty t' = none) :=
  KeptList.find h.leafs

theorem Kept.at_ : ∀ (tys : List BoxType) {t t' : Tree}, Kept t t' →
    (∃ c c', Spec.at_ tys t = some c ∧ Spec.at_ tys t' = some c' ∧ Kept c c') ∨ (Spec.at_ tys t = none ∧ Spec.at_ tys t' = none)
  | [], t, t', h => .inl ⟨t, t', rfl, rfl, h⟩
  | ty :: tys, t, t', h => by
    rw [at_cons, at_cons]
    rcases h.child ty with ⟨c, c', h1, h2, h3⟩ | ⟨h1, h2⟩
    · rw [h1, h2]; exact Kept.at_ tys h3
    · rw [h1, h2]; exact .inr ⟨rfl, rfl⟩

theorem Kept.dataAt {path : List String} {t t' : Tree} {d : BoxData} (h : Kept t t') (hd : Spec.dataAt path t = some d) :
    ∃ env ty, Spec.dataAt path t' = some (d.stored env ty) := by
  unfold Spec.dataAt at hd ⊢
  rcases h.at_ (path.map fourcc) with ⟨c, c', h1, h2, h3⟩ | ⟨h1, h2⟩
  · rw [h1] at hd
    cases hd
    obtain ⟨env, he⟩ := h3.data
    exact ⟨env, c.box.type, by rw [h2, Option.map_some, he]⟩
  · rw [h1] at hd; cases hd

theorem Kept.noneAt {path : List String} {t t' : Tree} (h : Kept t t') (hd : Spec.noneAt path t) : Spec.noneAt path t' := by
  unfold Spec.noneAt at hd ⊢
  rcases h.at_ (path.map fourcc) with ⟨c, c', h1, h2, h3⟩ | ⟨h1, h2⟩
  · rw [h1] at hd; cases hd
  · exact h2

theorem Kept.traks {t t' : Tree} (h : Kept t t') : KeptList (Spec.traks t) (Spec.traks t') := KeptList.filter _ h.leafs

theorem Kept.stsc {t t' : Tree} (h : Kept t t') {x : List StscEntry} (hx : Spec.stscEntries t = some x) : Spec.stscEntries t' = some x := by
  unfold Spec.stscEntries at hx ⊢
  rcases h.child (fourcc "stsc") with ⟨c, c', h1, h2, h3⟩ | ⟨h1, h2⟩
  · rw [h1] at hx; rw [h2]
    obtain ⟨env, he⟩ := h3.data
    dsimp only [Option.bind_some] at hx ⊢
    rw [he]
    cases hc : c.box.data <;> rw [hc] at hx <;> first | exact hx | cases hx
  · rw [h1] at hx; cases hx

theorem Kept.stsz {t t' : Tree} (h : Kept t t') {x : List Nat} (hx : Spec.stszSizes t = some x) : Spec.stszSizes t' = some x := by
  unfold Spec.stszSizes at hx ⊢
  rcases h.child (fourcc "stsz") with ⟨c, c', h1, h2, h3⟩ | ⟨h1, h2⟩
  · rw [h1] at hx; rw [h2]
    obtain ⟨env, he⟩ := h3.data
    dsimp only [Option.bind_some] at hx ⊢
    rw [he]
    cases hc : c.box.data <;> rw [hc] at hx <;> try cases hx
    rename_i b
    dsimp only at hx
    show (match (BoxData.stsz (if b.sample_size = 0 then b else { b with entry_sizes := [] })) with
      | .stsz b => if b.sample_size = 0 then some (b.entry_sizes.map (·.toNat)) else none
      | _ => none) = some x
    by_cases hz : b.sample_size = 0
    · rw [if_pos hz]; exact hx
    · rw [if_neg hz] at hx; cases hx
  · rw [h1] at hx; cases hx

theorem stored_offsets (env : Env) (ty : BoxType) (d : BoxData) {x : List Nat} (h : Spec.chunkOffsets d = some x) :
    Spec.chunkOffsets (d.stored env ty) = some x := by
  cases d <;> first | exact h | cases h

theorem Kept.offsets {t t' : Tree} (h : Kept t t') {x : List Nat} (hx : Spec.stblOffsets t = some x) : Spec.stblOffsets t' = some x := by
  unfold Spec.stblOffsets at hx ⊢
  rcases h.child (fourcc "stco") with ⟨c, c', h1, h2, h3⟩ | ⟨h1, h2⟩
  · rw [h1] at hx; rw [h2]
    obtain ⟨env, he⟩ := h3.data
    rw [Option.some_or, Option.bind_some] at hx ⊢
    rw [he]
    exact stored_offsets _ _ _ hx
  · rcases h.child (fourcc "co64") with ⟨c, c', k1, k2, h3⟩ | ⟨k1, k2⟩
    · rw [h1, k1] at hx; rw [h2, k2]
      obtain ⟨env, he⟩ := h3.data
      rw [Option.none_or, Option.bind_some] at hx ⊢
      rw [he]
      exact stored_offsets _ _ _ hx
    · rw [h1, k1] at hx; cases hx

theorem Kept.trakSamples {t t' : Tree} (h : Kept t t') (file : List Byte) {x : List (List Byte)}
    (hx : Spec.trakSamples file t = some x) : Spec.trakSamples file t' = some x := by
  unfold Spec.trakSamples at hx ⊢
  obtain ⟨s, k1, k2⟩ := Option.bind_eq_some_iff.mp hx
  obtain ⟨c, k3, k4⟩ := Option.bind_eq_some_iff.mp k2
  obtain ⟨z, k5, k6⟩ := Option.bind_eq_some_iff.mp k4
  obtain ⟨o, k7, k8⟩ := Option.bind_eq_some_iff.mp k6
  have hs : ∃ s', Spec.stbl t' = some s' ∧ Kept s s' := by
    have e : ∀ u, Spec.stbl u = Spec.at_ [fourcc "mdia", fourcc "minf", fourcc "stbl"] u := by
      intro u
      unfold Spec.stbl
      rw [at_cons]
      cases Spec.child (fourcc "mdia") u with
      | none => rfl
      | some v =>
        rw [Option.bind_some, Option.bind_some, at_cons]
        cases Spec.child (fourcc "minf") v with
        | none => rfl
        | some w =>
          rw [Option.bind_some, Option.bind_some, at_cons]
          cases Spec.child (fourcc "stbl") w <;> rfl
    rw [e] at k1 ⊢
    rcases h.at_ [fourcc "mdia", fourcc "minf", fourcc "stbl"] with ⟨c, c', h1, h2, h3⟩ | ⟨h1, h2⟩
    · rw [k1] at h1; cases h1; exact ⟨c', h2, h3⟩
    · rw [k1] at h1; cases h1
  obtain ⟨s', hs1, hs2⟩ := hs
  rw [hs1, Option.bind_some, hs2.stsc k3, Option.bind_some, hs2.stsz k5, Option.bind_some, hs2.offsets k7, Option.bind_some]
  exact k8

end Tree
end Mp4
