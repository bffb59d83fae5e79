import Verif.Lemmas.Moov

/-! # Comparing the sizes of trees of the same shape -/

namespace Mp4

namespace Tree

mutual
/-- Same shape, every box of `t` has at most as much data as its counterpart. -/
def Le : Tree → Tree → Prop
  | .node b _ ls, .node b' _ ls' => b.data.getDataSize ≤ b'.data.getDataSize ∧ LeList ls ls'
def LeList : List Tree → List Tree → Prop
  | [], [] => True
  | t :: ts, u :: us => t.Le u ∧ LeList ts us
  | [], _ :: _ => False
  | _ :: _, [] => False
end

theorem headerSize_mono {a b : Nat} (h : a ≤ b) : Spec.headerSize a ≤ Spec.headerSize b := by
  unfold Spec.headerSize
  split <;> split <;> omega

theorem Le.inner {t u : Tree} (h : t.Le u) : t.inner ≤ u.inner := by
  exact (Tree.rec (motive_1 := fun t => ∀ u, t.Le u → t.inner ≤ u.inner)
    (motive_2 := fun ts => ∀ us, LeList ts us → totalList ts ≤ totalList us)
    (fun b p ls ih u h => by
      obtain ⟨b', p', ls'⟩ := u
      rw [Le] at h
      have := ih _ h.2
      rw [Tree.inner, Tree.inner]
      omega)
    (fun us h => by cases us with
      | nil => exact Nat.le_refl _
      | cons => exact h.elim)
    (fun t ts ih1 ih2 us h => by
      cases us with
      | nil => exact h.elim
      | cons u us =>
        rw [LeList] at h
        have h1 := ih1 u h.1
        have h2 := ih2 us h.2
        have h3 := headerSize_mono h1
        rw [totalList, totalList]
        omega) t) u h

theorem Le.total {t u : Tree} (h : t.Le u) : t.total ≤ u.total := by
  have h1 := h.inner
  have h2 := headerSize_mono h1
  unfold Tree.total
  omega

theorem Le.refl (t : Tree) : t.Le t := by
  exact Tree.rec (motive_1 := fun t => t.Le t) (motive_2 := fun ts => LeList ts ts)
    (fun b p ls ih => ⟨Nat.le_refl _, ih⟩) trivial (fun t ts ih1 ih2 => ⟨ih1, ih2⟩) t

theorem LeList.refl (ts : List Tree) : LeList ts ts := by
  induction ts with
  | nil => trivial
  | cons t ts ih => exact ⟨Le.refl t, ih⟩

theorem LeList.append {a a' b b' : List Tree} (h : LeList a a') (h' : LeList b b') : LeList (a ++ b) (a' ++ b') := by
  induction a generalizing a' with
  | nil => cases a' with
    | nil => exact h'
    | cons => exact h.elim
  | cons t a ih => cases a' with
    | nil => exact h.elim
    | cons u a' => exact ⟨h.1, ih h.2⟩

end Tree

theorem mkInfo_le {ty ty' : BoxType} {d d' : BoxData} {cs cs' : List Mk} {p p' : List BoxType} (h : d.getDataSize ≤ d'.getDataSize)
    (hl : Tree.LeList (cs.map (· (p ++ [ty]))) (cs'.map (· (p' ++ [ty'])))) : (mkInfo ty d cs p).Le (mkInfo ty' d' cs' p') := ⟨h, hl⟩

/-- Two tracks that differ in the offsets of their chunks. -/
def SameButOffsets (t u : Track) : Prop :=
  ∃ cs, u = { t with chunk_infos := cs } ∧ cs.map (·.number_of_samples) = t.chunk_infos.map (·.number_of_samples)

theorem stscGo_congr (cs : List ChunkInfo) : ∀ (cs' : List ChunkInfo) (n : Int) (k : BitVec 32),
    cs'.map (·.number_of_samples) = cs.map (·.number_of_samples) → stscGo n k cs' = stscGo n k cs := by
  induction cs with
  | nil => intro cs' n k h; rw [List.map_nil, List.map_eq_nil_iff] at h; rw [h]
  | cons c cs ih =>
    intro cs' n k h
    cases cs' with
    | nil => simp at h
    | cons c' cs' =>
      rw [List.map_cons, List.map_cons, List.cons.injEq] at h
      rw [stscGo, stscGo, h.1, ih cs' _ _ h.2, ih cs' _ _ h.2]

/-- `trak` boxes of such tracks compare as their `stco`/`co64` boxes do. -/
theorem trak_le {t u : Track} (h : SameButOffsets t u)
    (ho : (make_offset_box t.chunk_infos).data.getDataSize ≤ (make_offset_box u.chunk_infos).data.getDataSize) (p : List BoxType) :
    (t.trak p).Le (u.trak p) := by
  obtain ⟨cs, rfl, hcs⟩ := h
  have hstsc : ∀ q, Track.stsc { t with chunk_infos := cs } q = t.stsc q := by
    intro q
    unfold Track.stsc make_stsc_entries
    rw [stscGo_congr t.chunk_infos cs _ _ hcs]
  have hoff : ∀ q, (t.offsets q).Le (Track.offsets { t with chunk_infos := cs } q) := fun q => mkInfo_le ho trivial
  unfold Track.trak
  refine mkInfo_le (Nat.le_refl _) ?_
  simp only [List.map_cons, List.map_nil]
  refine ⟨Tree.Le.refl _, Tree.Le.refl _, ?_, trivial⟩
  refine mkInfo_le (Nat.le_refl _) ?_
  simp only [List.map_cons, List.map_nil]
  refine ⟨Tree.Le.refl _, Tree.Le.refl _, ?_, trivial⟩
  refine mkInfo_le (Nat.le_refl _) ?_
  simp only [List.map_cons, List.map_nil]
  refine ⟨Tree.Le.refl _, Tree.Le.refl _, ?_, trivial⟩
  refine mkInfo_le (Nat.le_refl _) ?_
  have hst : ∀ q, (t.stsc q).Le (Track.stsc { t with chunk_infos := cs } q) := fun q => by rw [hstsc]; exact Tree.Le.refl _
  unfold Track.stblChildren
  cases hc : t.codec <;> simp only [hc, List.map_cons, List.map_nil, List.cons_append, List.nil_append, Track.rollGroups]
  all_goals refine ⟨Tree.Le.refl _, Tree.Le.refl _, ?_⟩
  · exact ⟨Tree.Le.refl _, hst _, Tree.Le.refl _, hoff _, trivial⟩
  · exact ⟨Tree.Le.refl _, hst _, Tree.Le.refl _, hoff _, trivial⟩
  · exact ⟨Tree.Le.refl _, hst _, Tree.Le.refl _, hoff _, trivial⟩
  · exact ⟨hst _, Tree.Le.refl _, hoff _, Tree.Le.refl _, Tree.Le.refl _, trivial⟩
  · exact ⟨hst _, Tree.Le.refl _, hoff _, Tree.Le.refl _, Tree.Le.refl _, trivial⟩
  · exact ⟨hst _, Tree.Le.refl _, hoff _, trivial⟩

theorem moovTree_le (m : Mvhd) (f g : Track → Track) (B : List Track) (h : ∀ t ∈ B, ((f t).trak [fourcc "moov"]).Le ((g t).trak [fourcc "moov"])) :
    (moovTree m (B.map f)).Le (moovTree m (B.map g)) := by
  refine ⟨Nat.le_refl _, Tree.Le.refl _, Tree.LeList.append ?_ (Tree.LeList.refl _)⟩
  induction B with
  | nil => trivial
  | cons t B ih => exact ⟨h t List.mem_cons_self, ih fun u hu => h u (List.mem_cons_of_mem _ hu)⟩

/-- The size of the chunk offset box. -/
theorem offset_box_size (cs : List ChunkInfo) : (make_offset_box cs).data.getDataSize =
    8 + cs.length * (if ∃ l, cs.getLast? = some l ∧ l.offset.toNat ≥ 2 ^ 32 then 8 else 4) := by
  unfold make_offset_box
  cases hl : cs.getLast? with
  | none => simp [BoxData.getDataSize, Stco.getDataSize]
  | some l =>
    dsimp only
    have : (l.offset > 0xffffffff#64) ↔ l.offset.toNat ≥ 2 ^ 32 := by
      rw [gt_iff_lt, BitVec.lt_def]; simp; omega
    by_cases hc : l.offset > 0xffffffff#64
    · have h2 := this.mp hc
      rw [if_pos (by simpa using hc), if_pos ⟨l, rfl, h2⟩]
      simp [BoxData.getDataSize, Co64.getDataSize]
    · have h2 := fun h => hc (this.mpr h)
      rw [if_neg (by simpa using hc), if_neg (by rintro ⟨x, hx, hx2⟩; cases hx; exact h2 hx2)]
      simp [BoxData.getDataSize, Stco.getDataSize]

end Mp4
