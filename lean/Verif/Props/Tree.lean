import Verif.Lemmas.Tree
import Verif.Lemmas.Adjust
import Verif.Model.BoxInfo

/-!
# C12, C13, C52: the box tree
-/

namespace Mp4

/-- **C12.** `adjustOffsetAndSize(o)` terminates and puts every box in its place, whatever headers the boxes had before:
the result is the tree `place t o` of the specification, and the returned size is that of the root.
Hypotheses: sizes and end offset below `2^64`; headers, where present, belong to their boxes and none is marked as
extending to the end of the file. -/
theorem C12_layout (t : Tree) (o : Nat) (ha : t.All Box.OwnHeader) (h : o + t.total < 2 ^ 64) :
    t.adjustOffsetAndSize o = some (t.total, t.place o) := by
  obtain ⟨t', h1, -, -, h4⟩ := Tree.good (2 * t.depth) t o (Nat.le_refl _) ha (by omega)
  rw [Tree.adjustOffsetAndSize, h1, h4 h]

/-- **C12** The recursion ends after at most two passes per level: any larger recursion depth gives the same result. -/
theorem C12_terminates (t : Tree) (o : Nat) (ha : t.All Box.OwnHeader) (h : o + t.total < 2 ^ 64) (fuel : Nat)
    (hf : 2 * t.depth ≤ fuel) : t.adjust fuel o = some (t.total, t.place o) := by
  obtain ⟨t', h1, -, -, h4⟩ := Tree.good fuel t o hf ha (by omega)
  rw [h1, h4 h]

/-- **C12** It ends for every tree and every offset, whatever the headers say and also when sizes do not fit into 64 bits: two passes per
level are always enough, and it changes nothing but headers. -/
theorem C12_always_ends (t : Tree) (o : Nat) :
    ∃ n t', t.adjustOffsetAndSize o = some (n, t') ∧ t'.erase = t.erase ∧ ∀ fuel, 2 * t.depth ≤ fuel → t.adjust fuel o = some (n, t') := by
  obtain ⟨t', h⟩ := Tree.adjustOffsetAndSize_ends t o
  exact ⟨_, t', h⟩

mutual
theorem Tree.laidOut_place : ∀ (t : Tree) (o : Nat), (t.place o).LaidOut o
  | .node b p ls, o => by
    rw [Tree.place, Tree.LaidOut]
    have hin : (Tree.node b p ls).inner = b.data.getDataSize + totalList ls := by rw [Tree.inner]
    refine ⟨_, rfl, rfl, rfl, rfl, ?_, _, Tree.laidOutList_place ls _, ?_⟩
    · dsimp only
      rw [Tree.total]
      unfold Spec.headerSize
      split <;> simp <;> omega
    · dsimp only
      rw [Tree.total, hin]
      omega
theorem Tree.laidOutList_place : ∀ (ts : List Tree) (o : Nat), Tree.LaidOutList (placeList ts o) o (o + totalList ts)
  | [], o => by rw [Tree.placeList, Tree.LaidOutList, Tree.totalList]; rfl
  | .node b p ls :: ts, o => by
    rw [Tree.placeList, Tree.LaidOutList]
    refine ⟨Tree.laidOut_place (.node b p ls) o, ?_⟩
    rw [Tree.place]
    refine ⟨_, rfl, ?_⟩
    dsimp only
    rw [Tree.totalList_cons, ← Nat.add_assoc]
    exact Tree.laidOutList_place ts _
end

/-- **C12**, spelled out: sizes and offsets of all boxes after the call, the unchanged rest, and that a second call changes
nothing. -/
theorem C12_sizes (t : Tree) (o : Nat) (ha : t.All Box.OwnHeader) (h : o + t.total < 2 ^ 64) :
    ∃ t', t.adjustOffsetAndSize o = some (t.total, t') ∧ t'.LaidOut o ∧ t'.erase = t.erase ∧
      t'.getSize = .ok t.total ∧ t'.adjustOffsetAndSize o = some (t.total, t') := by
  refine ⟨t.place o, C12_layout t o ha h, t.laidOut_place o, t.place_erase o, ?_, ?_⟩
  · obtain ⟨b, p, ls⟩ := t
    rw [Tree.place, Tree.getSize]; rfl
  · obtain ⟨t', h1, -, h3, h4⟩ := Tree.good (2 * t.depth) t o (Nat.le_refl _) ha (by omega)
    rw [h4 h] at h3
    have := C12_layout (t.place o) o h3 (by rw [Tree.place_total]; exact h)
    rw [this, Tree.place_total, ← Tree.erase_place (t.place o), Tree.place_erase, Tree.erase_place]

/-- **C12** The result depends on types, contents and shape only, not on headers left over from earlier calls. -/
theorem C12_header_independent (t u : Tree) (o : Nat) (he : t.erase = u.erase) (ht : t.All Box.OwnHeader)
    (hu : u.All Box.OwnHeader) (h : o + t.total < 2 ^ 64) : t.adjustOffsetAndSize o = u.adjustOffsetAndSize o := by
  have h1 : t.total = u.total := by rw [← Tree.erase_total t, he, Tree.erase_total]
  rw [C12_layout t o ht h, C12_layout u o hu (by omega), h1, ← Tree.erase_place t, he, Tree.erase_place]

/-- a `moov` box with a stale 16-byte header and a `free` box of 5 payload bytes inside -/
example : ∃ t : Tree, t.All Box.OwnHeader ∧ t.total = 21 ∧
    ∃ p, t.adjustOffsetAndSize 100 = some (21, p) ∧ p.leafs.map (fun u => u.box.theHeader.offset) = [108] := by
  have ha : (Tree.node ⟨fourcc "moov", .empty, some ⟨3, 77, 16, fourcc "moov", false⟩⟩ [] [.node
      ⟨fourcc "free", .opaq ⟨[1, 2, 3, 4, 5]⟩, none⟩ [] []]).All Box.OwnHeader := by
    refine ⟨?_, ⟨?_, trivial⟩, trivial⟩
    · intro h hh; cases hh; exact ⟨rfl, rfl⟩
    · intro h hh; cases hh
  exact ⟨_, ha, by decide +kernel, _, C12_layout _ 100 ha (by decide +kernel), by decide +kernel⟩

/-- **C13.** After `adjustOffsetAndSize(o)`, `write` succeeds on every file and puts there, at `o`, exactly the nested encoding
`header ++ payload ++ children` of the tree, of length `getSize()`, changing no other byte; the headers stay as they
are and the put position ends behind the tree. -/
theorem C13_serialization (t : Tree) (o : Nat) (os : OStream) (ha : t.All Box.OwnHeader) (h : o + t.total < 2 ^ 64)
    (hw : t.All fun b => (∃ n, b.data.writeData.res = .ok n) ∧ ∀ m : Mdhd, b.data = .mdhd m → LangOk m.language) :
    ∃ t' os', t.adjustOffsetAndSize o = some (t.total, t') ∧ t'.write os = (.ok (), t', os') ∧
      os' = (os.seekp o).write t.encode ∧ t.encode.length = t.total ∧
      Patched os.data os'.data o t.encode ∧ os'.pos = o + t.total := by
  have he : t.All Tree.Encodable := by
    refine Tree.All.mono (fun b hb => ⟨?_, ?_⟩) t hw
    · obtain ⟨n, hn⟩ := hb.1
      exact BoxData.writable_of_ok b.data hn
    · have hl := hb.2
      cases hd : b.data <;> first | exact hl _ hd | trivial
  have hl := t.encode_length he
  have hne : t.encode ≠ [] := by
    intro hc
    rw [hc] at hl
    have := Tree.headerSize_cases t.inner
    rw [Tree.total] at hl
    simp at hl
    omega
  refine ⟨t.place o, (os.seekp o).write t.encode, C12_layout t o ha h, t.place_write o os he (by omega), rfl, hl, ?_, ?_⟩
  · exact OStream.write_patched (os.seekp o) t.encode hne
  · rw [OStream.write_pos, hl]; rfl

/-- the encoding of a small tree, byte for byte -/
example : (Tree.node ⟨fourcc "moov", .empty, none⟩ [] [.node ⟨fourcc "free", .opaq ⟨[1, 2, 3]⟩, none⟩ [] [],
      .node ⟨fourcc "stss", .stss ⟨⟨0, 0, 0, 0⟩, [1#32]⟩, none⟩ [] []]).encode
    = [0, 0, 0, 39, 0x6d, 0x6f, 0x6f, 0x76, 0, 0, 0, 11, 0x66, 0x72, 0x65, 0x65, 1, 2, 3,
       0, 0, 0, 20, 0x73, 0x74, 0x73, 0x73, 0, 0, 0, 0, 0, 0, 0, 1, 0, 0, 0, 1] := by
  decide +kernel

/-! ### C52 -/

/-- The objects constructed with object `i` as parent, in order of construction. -/
def Spec.childrenOf (hist : List (Option Nat × Box)) (i : Nat) : List Nat :=
  (List.range hist.length).filter fun j => (hist[j]?.bind (·.1)) == some i

/-- What the object constructed as number `i`, by the call `BoxInfo({parent, box})`, must look like. -/
def Spec.InfoOk (hist : List (Option Nat × Box)) (heap : InfoHeap) (i : Nat) (parent : Option Nat) (box : Box)
    (n : InfoNode) : Prop :=
  n.box.type = box.type ∧ n.leafs = Spec.childrenOf hist i ∧
  match parent with
  | none => n.path = [box.type] ∧ n.box = box
  | some j => j < i ∧ ∃ p, heap[j]? = some p ∧ n.path = p.path ++ [box.type] ∧
      n.box = if p.box.type = fourcc "wave" then box.setUnderWave else box

theorem snocInduction {α : Type} {P : List α → Prop} (nil : P []) (append_singleton : ∀ l x, P l → P (l ++ [x])) (l : List α) :
    P l := by
  have key : ∀ k : List α, P k.reverse := by
    intro k
    induction k with
    | nil => exact nil
    | cons a k ih => rw [List.reverse_cons]; exact append_singleton _ _ ih
  have := key l.reverse
  rwa [List.reverse_reverse] at this

theorem newBoxInfos_snoc (heap : InfoHeap) (hist : List (Option Nat × Box)) (x : Option Nat × Box) :
    newBoxInfos heap (hist ++ [x]) = (newBoxInfos heap hist).bind fun hp => newBoxInfo hp x.1 x.2 := by
  induction hist generalizing heap with
  | nil =>
    simp only [List.nil_append, newBoxInfos, Option.bind_some]
    cases newBoxInfo heap x.1 x.2 <;> rfl
  | cons y hist ih =>
    simp only [List.cons_append, newBoxInfos]
    cases h : newBoxInfo heap y.1 y.2 with
    | none => rfl
    | some hp => exact ih hp

theorem childrenOf_snoc (hist : List (Option Nat × Box)) (x : Option Nat × Box) (i : Nat) :
    Spec.childrenOf (hist ++ [x]) i = Spec.childrenOf hist i ++ (if x.1 = some i then [hist.length] else []) := by
  rw [Spec.childrenOf, List.length_append, List.length_singleton, List.range_succ, List.filter_append, Spec.childrenOf]
  congr 1
  · apply List.filter_congr
    intro j hj
    rw [List.getElem?_append_left (by simpa using hj)]
  · simp only [List.filter_cons, List.filter_nil, List.getElem?_concat_length, Option.bind_some, beq_iff_eq]

theorem setUnderWave_type (b : Box) : b.setUnderWave.type = b.type := by
  unfold Box.setUnderWave
  split <;> rfl

/-- **C52.** After any sequence of constructor calls with existing parents: the path of every object is the path of its
parent followed by its own type (just the type without a parent); its children are the objects constructed with it as parent, in that
order; and its box is the one given, marked "under wave" exactly when it is an audio sample entry whose parent is
a `wave` box. -/
theorem C52_path_and_context (hist : List (Option Nat × Box)) (heap : InfoHeap)
    (h : newBoxInfos [] hist = some heap) :
    heap.length = hist.length ∧
    ∀ i parent box, hist[i]? = some (parent, box) →
      ∃ n, heap[i]? = some n ∧ Spec.InfoOk hist heap i parent box n := by
  induction hist using snocInduction generalizing heap with
  | nil => cases h; exact ⟨rfl, by intro i p b hi; simp at hi⟩
  | append_singleton hist x ih =>
    rw [newBoxInfos_snoc] at h
    cases h0 : newBoxInfos [] hist with
    | none => rw [h0] at h; cases h
    | some hp =>
      rw [h0, Option.bind_some] at h
      obtain ⟨hl, hn⟩ := ih hp h0
      obtain ⟨parent, box⟩ := x
      cases parent with
      | none =>
        simp only [newBoxInfo, Option.some.injEq] at h
        subst h
        refine ⟨by simp [hl], ?_⟩
        intro i parent' box' hi
        by_cases hlt : i < hist.length
        · rw [List.getElem?_append_left hlt] at hi
          obtain ⟨n, k1, k2, k3, k4⟩ := hn i parent' box' hi
          refine ⟨n, by rw [List.getElem?_append_left (by omega)]; exact k1, k2, ?_, ?_⟩
          · rw [childrenOf_snoc, k3]; simp
          · cases parent' with
            | none => exact k4
            | some j =>
              obtain ⟨hj, p, q1, q2⟩ := k4
              exact ⟨hj, p, by rw [List.getElem?_append_left (by omega)]; exact q1, q2⟩
        · have hi' : i = hist.length := by
            have := (List.getElem?_eq_some_iff.mp hi).1
            simp at this
            omega
          subst hi'
          rw [List.getElem?_concat_length] at hi
          cases hi
          refine ⟨{ box := box, path := [] ++ [box.type], leafs := [] }, ?_, rfl, ?_, rfl, rfl⟩
          · rw [← hl, List.getElem?_concat_length]
          · rw [childrenOf_snoc, if_neg (by simp), List.append_nil]
            have : Spec.childrenOf hist hist.length = [] := by
              rw [Spec.childrenOf, List.filter_eq_nil_iff]
              intro j hj hc
              rw [beq_iff_eq] at hc
              simp only [List.mem_range] at hj
              obtain ⟨y, hy⟩ : ∃ y, hist[j]? = some y := ⟨_, List.getElem?_eq_getElem hj⟩
              rw [hy, Option.bind_some] at hc
              obtain ⟨n, -, -, -, k4⟩ := hn j y.1 y.2 hy
              rw [hc] at k4
              have := k4.1
              omega
            rw [this]
      | some k =>
        have hchild : Spec.childrenOf hist hist.length = [] := by
          rw [Spec.childrenOf, List.filter_eq_nil_iff]
          intro j hj hc
          rw [beq_iff_eq] at hc
          simp only [List.mem_range] at hj
          obtain ⟨y, hy⟩ : ∃ y, hist[j]? = some y := ⟨_, List.getElem?_eq_getElem hj⟩
          rw [hy, Option.bind_some] at hc
          obtain ⟨n, -, -, -, k4⟩ := hn j y.1 y.2 hy
          rw [hc] at k4
          have := k4.1
          omega
        simp only [newBoxInfo] at h
        cases hk : hp[k]? with
        | none => rw [hk] at h; cases h
        | some p =>
          rw [hk] at h
          simp only [Option.some.injEq] at h
          have hklt : k < hp.length := (List.getElem?_eq_some_iff.mp hk).1
          subst h
          refine ⟨by simp [hl], ?_⟩
          have old : ∀ j q, j < hp.length → hp[j]? = some q → ∃ q', (hp.set k { p with leafs := p.leafs ++ [hp.length] } ++
              [{ box := if p.box.type = fourcc "wave" then box.setUnderWave else box,
                 path := p.path ++ [(if p.box.type = fourcc "wave" then box.setUnderWave else box).type],
                 leafs := [] }])[j]? = some q' ∧ q'.box = q.box ∧ q'.path = q.path ∧
              q'.leafs = q.leafs ++ (if some k = some j then [hp.length] else []) := by
            intro j q hj hq
            rw [List.getElem?_append_left (by simpa using hj), List.getElem?_set]
            by_cases e : k = j
            · subst e
              rw [hk] at hq
              cases hq
              exact ⟨{ p with leafs := p.leafs ++ [hp.length] }, by rw [if_pos rfl, if_pos hj], rfl, rfl, by simp⟩
            · exact ⟨q, by rw [if_neg e]; exact hq, rfl, rfl, by simp [e]⟩
          intro i parent' box' hi
          by_cases hlt : i < hist.length
          · rw [List.getElem?_append_left hlt] at hi
            obtain ⟨n, k1, k2, k3, k4⟩ := hn i parent' box' hi
            obtain ⟨n', r1, r2, r3, r4⟩ := old i n (by omega) k1
            refine ⟨n', r1, by rw [r2]; exact k2, ?_, ?_⟩
            · rw [r4, childrenOf_snoc, k3, hl]
            · cases parent' with
              | none => exact ⟨by rw [r3]; exact k4.1, by rw [r2]; exact k4.2⟩
              | some j =>
                obtain ⟨hj, q, q1, q2, q3⟩ := k4
                obtain ⟨q', s1, s2, s3, -⟩ := old j q (by omega) q1
                exact ⟨hj, q', s1, by rw [r3, s3]; exact q2, by rw [r2, s2]; exact q3⟩
          · have hi' : i = hist.length := by
              have := (List.getElem?_eq_some_iff.mp hi).1
              simp at this
              omega
            subst hi'
            rw [List.getElem?_concat_length] at hi
            cases hi
            have htype : (if p.box.type = fourcc "wave" then box.setUnderWave else box).type = box.type := by
              split
              · exact setUnderWave_type box
              · rfl
            obtain ⟨p', s1, s2, s3, -⟩ := old k p hklt hk
            refine ⟨{ box := if p.box.type = fourcc "wave" then box.setUnderWave else box,
                      path := p.path ++ [(if p.box.type = fourcc "wave" then box.setUnderWave else box).type],
                      leafs := [] }, ?_, htype, ?_, by omega, p', s1, ?_, ?_⟩
            · rw [List.getElem?_append_right (by simp; omega)]
              simp [hl]
            · have hne : ((some k, box) : Option Nat × Box).1 ≠ some hist.length := by simp; omega
              rw [childrenOf_snoc, hchild, if_neg hne]; rfl
            · show p.path ++ [_] = _
              rw [htype, s3]
            · show (if p.box.type = fourcc "wave" then box.setUnderWave else box) = _
              rw [s2]

/-- **C52** The calls succeed exactly when every parent has been constructed before. -/
theorem C52_parents_exist (hist : List (Option Nat × Box)) :
    (∃ heap, newBoxInfos [] hist = some heap) ↔
      ∀ (i j : Nat) (box : Box), hist[i]? = some (some j, box) → j < i := by
  constructor
  · rintro ⟨heap, h⟩ i j box hi
    obtain ⟨n, -, hn⟩ := (C52_path_and_context hist heap h).2 i _ box hi
    exact hn.2.2.1
  · induction hist using snocInduction with
    | nil => intro _; exact ⟨[], rfl⟩
    | append_singleton hist x ih =>
      intro h
      obtain ⟨hp, h0⟩ := ih fun i j box hi => h i j box (by
        rw [List.getElem?_append_left (List.getElem?_eq_some_iff.mp hi).1]; exact hi)
      have hl := (C52_path_and_context hist hp h0).1
      rw [newBoxInfos_snoc, h0, Option.bind_some]
      obtain ⟨parent, box⟩ := x
      cases parent with
      | none => exact ⟨_, rfl⟩
      | some k =>
        have hk := h hist.length k box (by rw [List.getElem?_concat_length])
        simp only [newBoxInfo, List.getElem?_eq_getElem (show k < hp.length by omega)]
        exact ⟨_, rfl⟩

/-- an audio sample entry below `wave`, and its sibling -/
example (a : AudioSampleEntry) : ∃ heap, newBoxInfos [] [(none, ⟨fourcc "moov", .empty, none⟩),
      (some 0, ⟨fourcc "wave", .empty, none⟩), (some 1, ⟨fourcc "mp4a", .audio a, none⟩),
      (some 0, ⟨fourcc "free", .opaq ⟨[]⟩, none⟩)] = some heap ∧
    heap.map (·.path.length) = [1, 2, 3, 2] ∧ heap.map (·.leafs) = [[1, 3], [2], [], []] ∧
    (heap[2]?.map (·.box.data)) = some (.audio { a with under_wave := true }) := by
  have hw : fourcc "moov" ≠ fourcc "wave" := by decide +kernel
  refine ⟨_, rfl, ?_, ?_, ?_⟩ <;> simp [Box.setUnderWave]

end Mp4
