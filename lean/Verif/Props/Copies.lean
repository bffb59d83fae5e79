import Verif.Spec.Copies
import Verif.Props.Depth

/-!
# C89: what copying payloads costs

`Spec.copied` and `Tree.copies` are in Spec/Copies.lean.
-/

namespace Mp4

private def cost (vs : List BoxHeader) : Nat := (vs.map fun h => h.size - h.headerSize).sum

private theorem copied_le_cost (len : Nat) (vs : List BoxHeader) : Spec.copied len vs ≤ cost vs := by
  unfold Spec.copied cost
  induction vs with
  | nil => exact Nat.le_refl _
  | cons h vs ih =>
    rw [List.filter_cons]
    split
    · simp only [List.map_cons, List.sum_cons]; omega
    · simp only [List.map_cons, List.sum_cons]; omega

private theorem cost_append (a b : List BoxHeader) : cost (a ++ b) = cost a + cost b := by
  simp [cost]

mutual
private theorem cost_tree : ∀ (t : Tree) (o e : Nat), t.Tiled o e → o ≤ e ∧ cost t.headers ≤ t.height * (e - o) ∧ t.copies ≤ cost t.headers
  | .node b p ls, o, e, ht => by
    obtain ⟨h, hb, h1, h2, h3, hc⟩ := ht
    have k : cost (Tree.headersList ls) ≤ Tree.heightList ls * (e - o) ∧ Tree.copiesList ls ≤ cost (Tree.headersList ls) := by
      rcases hc with hc | ⟨s, hs, hc⟩
      · subst hc
        exact ⟨Nat.zero_le _, Nat.le_refl _⟩
      · obtain ⟨k1, k2, k3⟩ := cost_list ls s e hc
        exact ⟨Nat.le_trans k2 (Nat.mul_le_mul_left _ (by omega)), k3⟩
    rw [Tree.headers, hb, cost_append, Tree.height, Tree.copies, hb]
    have e1 : cost (some h).toList = h.size - h.headerSize := by simp [cost]
    have e2 : (some h).elim 0 (fun h => h.size - h.headerSize) = h.size - h.headerSize := rfl
    rw [e1, e2, Nat.succ_mul]
    refine ⟨by omega, by omega, by omega⟩
private theorem cost_list : ∀ (ts : List Tree) (o e : Nat), Tree.TiledList ts o e →
    o ≤ e ∧ cost (Tree.headersList ts) ≤ Tree.heightList ts * (e - o) ∧ Tree.copiesList ts ≤ cost (Tree.headersList ts)
  | [], o, e, h => ⟨Nat.le_of_eq h, Nat.zero_le _, Nat.le_refl _⟩
  | t :: ts, o, e, ht => by
    obtain ⟨m, h1, h2⟩ := ht
    obtain ⟨a1, a2, a3⟩ := cost_tree t o m h1
    obtain ⟨b1, b2, b3⟩ := cost_list ts m e h2
    rw [Tree.heightList, Tree.headersList, cost_append, Tree.copiesList]
    have c1 := Nat.le_trans a2 (Nat.mul_le_mul_right (m - o) (Nat.le_max_left t.height (Tree.heightList ts)))
    have c2 := Nat.le_trans b2 (Nat.mul_le_mul_right (e - m) (Nat.le_max_right t.height (Tree.heightList ts)))
    have c3 : max t.height (Tree.heightList ts) * (e - o)
        = max t.height (Tree.heightList ts) * (m - o) + max t.height (Tree.heightList ts) * (e - m) := by
      rw [← Nat.mul_add]; congr 1; omega
    refine ⟨by omega, by omega, by omega⟩
end

/-- **C89** Reading a file that is accepted copies at most its length for every level of boxes in it, and so no more is in copies at the
same time. -/
theorem C89_accepted (sr : SimpleReader) (hl : sr.data.length < 2 ^ 63) (vs : List BoxHeader) (ts : List Tree)
    (h : sr.read = some ⟨vs, .ok ts⟩) :
    Spec.copied sr.data.length vs ≤ Tree.heightList ts * sr.data.length ∧ Tree.copiesList ts ≤ Spec.copied sr.data.length vs := by
  obtain ⟨h1, h2⟩ := C30_tiling sr hl vs ts h
  obtain ⟨-, k2, k3⟩ := cost_list ts _ _ h1
  rw [← h2] at k2 k3
  have hall : Spec.copied sr.data.length vs = cost vs := by
    unfold Spec.copied cost
    rw [List.filter_eq_self.mpr fun x hx => decide_eq_true (by
      by_cases hf : x.headerSize ≤ x.size ∧ x.offset + x.size ≤ sr.data.length
      · exact hf
      · obtain ⟨⟨w, hw⟩, -⟩ := C29_impossible_sizes sr hl _ h x hx (by omega)
        cases hw)]
  rw [hall]
  exact ⟨k2, k3⟩

private theorem copied_bound (len : Nat) (vs : List BoxHeader) : Spec.copied len vs ≤ vs.length * len := by
  unfold Spec.copied
  induction vs with
  | nil => exact Nat.zero_le _
  | cons h vs ih =>
    rw [List.filter_cons, List.length_cons, Nat.succ_mul]
    split
    · rename_i hf
      have := of_decide_eq_true hf
      simp only [List.map_cons, List.sum_cons]
      omega
    · omega

/-- **C89** Reading any file copies at most its length for every eight bytes it has. -/
theorem C89_any (sr : SimpleReader) (hl : sr.data.length < 2 ^ 63) (r : Run (List Tree)) (h : sr.read = some r) :
    Spec.copied sr.data.length r.visits ≤ sr.data.length / 8 * sr.data.length := by
  obtain ⟨r', k1, -, k3⟩ := C28_terminates sr hl
  rw [h] at k1
  cases k1
  exact Nat.le_trans (copied_bound _ _) (Nat.mul_le_mul_right _ (by omega))

private theorem nested_copies (sr : SimpleReader) : ∀ (n : Nat) (path : List BoxType) (o : Nat), 8 * (n + 1) < 2 ^ 32 →
    ((nested n).readBack sr path o).copies = 4 * n * (n + 1) := by
  intro n
  induction n with
  | zero => intro path o _; rfl
  | succ n ih =>
    intro path o hn
    have hi : ∀ m, 8 * (m + 1) < 2 ^ 32 → (nested m).inner = 8 * m := by
      intro m
      induction m with
      | zero => intro _; rfl
      | succ m ihm =>
        intro hm
        have := ihm (by omega)
        rw [nested, Tree.inner, Tree.totalList_cons, Tree.totalList, Tree.total, this]
        show 0 + (8 * m + Spec.headerSize (8 * m) + 0) = _
        unfold Spec.headerSize
        rw [if_pos (by omega)]
        omega
    have h1 := hi (n + 1) (by omega)
    rw [nested] at h1
    rw [nested, Tree.readBack, Tree.copies, Tree.readBackList, Tree.readBackList, Tree.copiesList, Tree.copiesList, ih _ _ (by omega), Tree.total, h1]
    show (8 * (n + 1) + Spec.headerSize (8 * (n + 1)) - Spec.headerSize (8 * (n + 1))) + max (4 * n * (n + 1)) 0 = _
    rw [Nat.max_zero, Nat.add_sub_cancel]
    have e : 4 * (n + 1) * (n + 1 + 1) = 4 * n * (n + 1) + 8 * (n + 1) := by
      rw [show n + 1 + 1 = n + 2 from rfl, Nat.mul_assoc, Nat.mul_assoc, show (n + 1) * (n + 2) = n * (n + 1) + 2 * (n + 1) by
        rw [Nat.mul_comm (n + 1) (n + 2), ← Nat.add_mul]]
      omega
    rw [e]
    omega

/-- **C89** The square is reached: for every number of levels there is an accepted file of eight bytes per level whose reading has
`4·n·(n+1)` bytes in copies at the same time. -/
theorem C89_quadratic (n : Nat) (hn : 8 * (n + 1) < 2 ^ 32) (file : Bool) (env : Nat → Env) :
    ∃ d : List Byte, d.length = 8 * (n + 1) ∧
      ∃ vs ts, ({ file := file, env := env, map := stdBoxMap, data := d } : SimpleReader).read = some ⟨vs, .ok ts⟩ ∧
        Tree.copiesList ts = 4 * n * (n + 1) ∧ 4 * n * (n + 1) ≤ Spec.copied d.length vs := by
  obtain ⟨hr, hlen⟩ := nested_read n (by omega) file env
  have hd : (Tree.encodeList [nested n]).length = 8 * (n + 1) := hlen.2 hn
  have hc : Tree.copiesList (Tree.readBackList { file := file, env := env, map := stdBoxMap, data := Tree.encodeList [nested n] } [] 0 [nested n])
      = 4 * n * (n + 1) := by
    rw [Tree.readBackList, Tree.readBackList, Tree.copiesList, Tree.copiesList, nested_copies _ n _ _ hn, Nat.max_zero]
  refine ⟨Tree.encodeList [nested n], hd, _, _, hr, hc, ?_⟩
  rw [← hc]
  exact (C89_accepted _ (by
    show (Tree.encodeList [nested n]).length < _
    omega) _ _ hr).2

/-- A file of 1 MiB that is accepted and has 64 GiB (less 512 KiB) in copies. -/
example (env : Nat → Env) : ∃ d : List Byte, d.length = 2 ^ 20 ∧
    ∃ vs ts, ({ file := true, env := env, map := stdBoxMap, data := d } : SimpleReader).read = some ⟨vs, .ok ts⟩ ∧
      Tree.copiesList ts = 2 ^ 36 - 2 ^ 19 := by
  obtain ⟨d, h1, vs, ts, h2, h3, -⟩ := C89_quadratic 131071 (by decide) true env
  exact ⟨d, h1, vs, ts, h2, h3⟩

end Mp4
