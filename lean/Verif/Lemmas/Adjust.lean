import Verif.Lemmas.Tree
import Verif.Model.Writer

/-! # `adjustOffsetAndSize` ends for every tree, also when sizes overflow -/

namespace Mp4
namespace Tree

/-- The header size that `setOffsetAndDataSize` chooses. -/
def pickHeader (n : Nat) : Nat := if n > UINT32_MAX - SMALL_HEADER_SIZE then LARGE_HEADER_SIZE else SMALL_HEADER_SIZE

mutual
/-- The size that is computed for a tree, in 64-bit arithmetic. -/
def wsize : Tree → Nat
  | .node b _ ls => u64 (u64 (b.data.getDataSize + wsizeList ls 0) + pickHeader (u64 (b.data.getDataSize + wsizeList ls 0)))
def wsizeList : List Tree → Nat → Nat
  | [], n => n
  | t :: ts, n => wsizeList ts (u64 (n + wsize t))
end

mutual
theorem erase_wsize : ∀ t : Tree, t.erase.wsize = t.wsize
  | .node b p ls => by rw [erase, wsize, wsize, eraseList_wsize ls]
theorem eraseList_wsize : ∀ (ts : List Tree) (n : Nat), wsizeList (eraseList ts) n = wsizeList ts n
  | [], _ => rfl
  | t :: ts, n => by rw [eraseList, wsizeList, wsizeList, erase_wsize t, eraseList_wsize ts]
end

/-- One call ends, returns the size and changes only headers. -/
def Ends (f : Nat) : Prop := ∀ (t : Tree) (o : Nat), 2 * t.depth ≤ f → ∃ t', adjust f t o = some (t.wsize, t') ∧ t'.erase = t.erase

theorem adjustList_ends (f : Nat) (hf : Ends f) (ls : List Tree) (base sz : Nat) (hd : 2 * depthList ls ≤ f) :
    ∃ ls', adjustList (adjust f) base ls sz = some (wsizeList ls sz, ls') ∧ eraseList ls' = eraseList ls := by
  induction ls generalizing sz with
  | nil => exact ⟨[], rfl, rfl⟩
  | cons t ts ih =>
    rw [depthList] at hd
    obtain ⟨t', h1, h2⟩ := hf t (u64 (base + sz)) (by omega)
    obtain ⟨ts', k1, k2⟩ := ih (u64 (sz + t.wsize)) (by omega)
    refine ⟨t' :: ts', ?_, ?_⟩
    · simp only [adjustList, h1, k1, wsizeList]
    · rw [eraseList, eraseList, h2, k2]

theorem set_header (b : Box) (o n : Nat) : (b.setOffsetAndDataSize o n).getHeaderSize = pickHeader n ∧
    (b.setOffsetAndDataSize o n).theHeader.size = u64 (n + pickHeader n) ∧ (b.setOffsetAndDataSize o n).data = b.data ∧
    (b.setOffsetAndDataSize o n).type = b.type := ⟨rfl, rfl, rfl, rfl⟩

theorem adjust_ends_settled (f : Nat) (hf : Ends f) (b : Box) (p : List BoxType) (ls : List Tree) (o : Nat) (hd : 2 * depthList ls ≤ f)
    (hh : b.getHeaderSize = pickHeader (u64 (b.data.getDataSize + wsizeList ls 0))) :
    ∃ t', adjust (f + 1) (.node b p ls) o = some ((Tree.node b p ls).wsize, t') ∧ t'.erase = (Tree.node b p ls).erase ∧
      t'.box.theHeader.size = (Tree.node b p ls).wsize := by
  obtain ⟨ls', k1, k2⟩ := adjustList_ends f hf ls (u64 (o + b.getHeaderSize + b.data.getDataSize)) 0 hd
  obtain ⟨e1, e2, e3, e4⟩ := set_header b o (u64 (b.data.getDataSize + wsizeList ls 0))
  refine ⟨.node (b.setOffsetAndDataSize o (u64 (b.data.getDataSize + wsizeList ls 0))) p ls', ?_, ?_, ?_⟩
  · rw [adjust]
    simp only [k1]
    rw [if_neg (by rw [e1, hh]; simp), e2, wsize]
  · rw [erase, erase, k2]; rfl
  · show Nat.mod _ _ = _
    rw [wsize]; rfl

theorem ends (f : Nat) : Ends f := by
  induction f using Nat.strongRecOn with
  | ind f ih =>
    intro t o hd
    obtain ⟨b, p, ls⟩ := t
    rw [depth] at hd
    obtain ⟨f, rfl⟩ : ∃ k, f = k + 2 := ⟨f - 2, by omega⟩
    by_cases hh : b.getHeaderSize = pickHeader (u64 (b.data.getDataSize + wsizeList ls 0))
    · obtain ⟨t', h1, h2, -⟩ := adjust_ends_settled (f + 1) (ih (f + 1) (by omega)) b p ls o (by omega) hh
      exact ⟨t', h1, h2⟩
    · obtain ⟨ls', k1, k2⟩ := adjustList_ends (f + 1) (ih (f + 1) (by omega)) ls
        (u64 (o + b.getHeaderSize + b.data.getDataSize)) 0 (by omega)
      obtain ⟨e1, e2, e3, e4⟩ := set_header b o (u64 (b.data.getDataSize + wsizeList ls 0))
      have hdl : depthList ls' = depthList ls := by rw [← eraseList_depth ls', k2, eraseList_depth]
      have hwl : wsizeList ls' 0 = wsizeList ls 0 := by rw [← eraseList_wsize ls', k2, eraseList_wsize]
      generalize hb' : b.setOffsetAndDataSize o (u64 (b.data.getDataSize + wsizeList ls 0)) = b' at e1 e2 e3 e4
      have her : (Tree.node b' p ls').erase = (Tree.node b p ls).erase := by
        rw [erase, erase, k2, ← hb']; rfl
      have hws : (Tree.node b' p ls').wsize = (Tree.node b p ls).wsize := by rw [← erase_wsize, her, erase_wsize]
      obtain ⟨t', m1, m2, m3⟩ := adjust_ends_settled f (ih f (by omega)) b' p ls' o (by omega) (by rw [e1, e3, hwl])
      refine ⟨t', ?_, by rw [m2, her]⟩
      rw [adjust]
      simp only [k1]
      rw [hb', if_pos (by rw [e1]; exact hh), m1]
      simp only [Option.some.injEq, Prod.mk.injEq, and_true]
      rw [m3, hws]

/-- More fuel changes nothing. -/
theorem adjustList_mono {f g : Tree → Nat → Option (Nat × Tree)} (h : ∀ t o r, f t o = some r → g t o = some r) (base : Nat) :
    ∀ ls n r, adjustList f base ls n = some r → adjustList g base ls n = some r
  | [], n, r, hr => hr
  | l :: ls, n, r, hr => by
    rw [adjustList] at hr ⊢
    cases h1 : f l (u64 (base + n)) with
    | none => rw [h1] at hr; cases hr
    | some q =>
      obtain ⟨k, l'⟩ := q
      rw [h1] at hr
      rw [h _ _ _ h1]
      dsimp only at hr ⊢
      cases h2 : adjustList f base ls (u64 (n + k)) with
      | none => rw [h2] at hr; cases hr
      | some q2 =>
        rw [h2] at hr
        rw [adjustList_mono h base ls _ _ h2]
        exact hr

theorem adjust_mono : ∀ (f : Nat) (t : Tree) (o : Nat) (r : Nat × Tree), adjust f t o = some r → adjust (f + 1) t o = some r := by
  intro f
  induction f with
  | zero => intro t o r h; rw [adjust] at h; cases h
  | succ f ih =>
    intro t o r h
    obtain ⟨b, p, ls⟩ := t
    rw [adjust] at h ⊢
    dsimp only at h ⊢
    cases h1 : adjustList (adjust f) (u64 (o + b.getHeaderSize + b.data.getDataSize)) ls 0 with
    | none => rw [h1] at h; cases h
    | some q =>
      obtain ⟨n, ls'⟩ := q
      rw [h1] at h
      rw [adjustList_mono ih _ _ _ _ h1]
      dsimp only at h ⊢
      split at h
      · rename_i hc
        rw [if_pos hc]
        cases h2 : adjust f (.node (b.setOffsetAndDataSize o (u64 (b.data.getDataSize + n))) p ls') o with
        | none => rw [h2] at h; cases h
        | some q2 =>
          rw [h2] at h
          rw [ih _ _ _ h2]
          exact h
      · rename_i hc
        rw [if_neg hc]
        exact h

theorem adjust_le {f g : Nat} (hfg : f ≤ g) {t : Tree} {o : Nat} {r : Nat × Tree} (h : adjust f t o = some r) : adjust g t o = some r := by
  obtain ⟨k, rfl⟩ := Nat.exists_eq_add_of_le hfg
  induction k with
  | zero => exact h
  | succ k ih => exact adjust_mono _ _ _ _ (ih (by omega))

theorem adjustOffsetAndSize_ends (t : Tree) (o : Nat) :
    ∃ t', t.adjustOffsetAndSize o = some (t.wsize, t') ∧ t'.erase = t.erase ∧
      ∀ fuel, 2 * t.depth ≤ fuel → adjust fuel t o = some (t.wsize, t') := by
  obtain ⟨t', h1, h2⟩ := ends (2 * t.depth) t o (Nat.le_refl _)
  exact ⟨t', h1, h2, fun fuel hf => adjust_le hf h1⟩

theorem adjustTree_ends (t : Tree) (o : Nat) :
    ∃ t', adjustTree t o = .ok t' ∧ t'.erase = t.erase ∧ ∀ fuel, 2 * t.depth ≤ fuel → adjust fuel t o = some (t.wsize, t') := by
  obtain ⟨t', h1, h2, h3⟩ := adjustOffsetAndSize_ends t o
  refine ⟨t', ?_, h2, h3⟩
  unfold adjustTree
  rw [h1]

end Tree
end Mp4
