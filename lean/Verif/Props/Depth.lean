import Verif.Lemmas.Depth
import Verif.Props.Reader
import Verif.Props.Stored

/-!
# C88: the call stack of `SimpleReader::read`

`readStack room` is `read` on a stack with room for `room` nested calls of `readBox`; it is `none` when that is not enough (Spec/Depth.lean).
-/

namespace Mp4

/-- **C88** A call of `readBox` for every eight bytes of the file, and one more, is enough, whether the file is accepted or not. -/
theorem C88_enough (sr : SimpleReader) (hl : sr.data.length < 2 ^ 63) (room : Nat) (hr : sr.data.length < 8 * room) :
    sr.readStack room = sr.read := by
  obtain ⟨r, h1, -, -⟩ := C28_terminates sr hl
  unfold SimpleReader.readStack
  rw [h1]
  unfold SimpleReader.read SimpleReader.readWith at h1
  generalize hq : SimpleReader.readLoop (sr.readBox (sr.data.length + 2) [] false) sr.data.length (sr.data.length + 2) 0 0 = q at h1
  cases q with
  | none => cases h1
  | some q =>
    rw [sr.room_loop hl (sr.data.length + 2) (sr.data.length + 2) room
      (fun h0 p w po r hlt hb => sr.room_box hl _ _ _ (Nat.le_refl _) h0 p w po r hlt hb) _ _ _ _ _ _ _ _ (Nat.le_refl _) (Nat.le_refl _)
      (by omega) (fun _ => by omega) hq]
    exact h1

/-- **C88** A file that is accepted needs exactly as many nested calls as its boxes are nested deep. -/
theorem C88_exact (sr : SimpleReader) (vs : List BoxHeader) (ts : List Tree) (h : sr.read = some ⟨vs, .ok ts⟩) (room : Nat) :
    sr.readStack room = if Tree.heightList ts ≤ room then some ⟨vs, .ok ts⟩ else none := by
  unfold SimpleReader.readStack
  unfold SimpleReader.read SimpleReader.readWith at h
  generalize hq : SimpleReader.readLoop (sr.readBox (sr.data.length + 2) [] false) sr.data.length (sr.data.length + 2) 0 0 = q at h
  match q, h with
  | some ⟨us, .ok (ts', e)⟩, h =>
    cases h
    rw [sr.exact_loop (sr.data.length + 2) (sr.data.length + 2) room (sr.exact_box _ _ (Nat.le_refl _) room) _ _ _ _ _ _ _ _ _ _
      (Nat.le_refl _) hq]
    by_cases h1 : Tree.heightList ts ≤ room
    · rw [if_pos h1, if_pos h1]
    · rw [if_neg h1, if_neg h1]

mutual
private theorem height_headers : ∀ (t : Tree) (o e : Nat), t.Tiled o e → t.height ≤ t.headers.length
  | .node b p ls, o, e, ht => by
    obtain ⟨h, hb, -, -, -, hc⟩ := ht
    have : Tree.heightList ls ≤ (Tree.headersList ls).length := by
      rcases hc with hc | ⟨s, -, hc⟩
      · subst hc
        rw [Tree.heightList]
        omega
      · exact heightList_headers ls s e hc
    rw [Tree.height, Tree.headers, hb]
    simp
    omega
private theorem heightList_headers : ∀ (ts : List Tree) (o e : Nat), Tree.TiledList ts o e → Tree.heightList ts ≤ (Tree.headersList ts).length
  | [], _, _, _ => by rw [Tree.heightList]; omega
  | t :: ts, o, e, ht => by
    obtain ⟨m, h1, h2⟩ := ht
    have k1 := height_headers t o m h1
    have k2 := heightList_headers ts m e h2
    rw [Tree.heightList, Tree.headersList, List.length_append]
    omega
end

/-- **C88** The boxes of an accepted file are not nested deeper than the file is long: at least eight bytes for every level. -/
theorem C88_nesting (sr : SimpleReader) (hl : sr.data.length < 2 ^ 63) (vs : List BoxHeader) (ts : List Tree)
    (h : sr.read = some ⟨vs, .ok ts⟩) : 8 * Tree.heightList ts ≤ sr.data.length := by
  obtain ⟨h1, h2⟩ := C30_tiling sr hl vs ts h
  have h3 := heightList_headers ts _ _ h1
  obtain ⟨r, k1, -, k3⟩ := C28_terminates sr hl
  rw [h] at k1
  cases k1
  simp only at k3
  rw [h2] at k3
  omega

private theorem nested_total : ∀ n, 8 * (n + 1) ≤ (nested n).total ∧ (nested n).total ≤ 16 * (n + 1) ∧
    (8 * (n + 1) < 2 ^ 32 → (nested n).total = 8 * (n + 1)) := by
  intro n
  induction n with
  | zero => decide
  | succ n ih =>
    have e : (nested (n + 1)).inner = (nested n).total := by
      rw [nested, Tree.inner, Tree.totalList_cons, Tree.totalList]
      show 0 + ((nested n).total + 0) = _
      omega
    have e2 : (nested (n + 1)).total = (nested n).total + Spec.headerSize (nested n).total := by rw [Tree.total, e]
    rw [e2]
    unfold Spec.headerSize
    split <;> omega

private theorem nested_surviving (sr : SimpleReader) (hm : sr.map = stdBoxMap) :
    ∀ (n : Nat) (wave : Bool) (o : Nat), Tree.Surviving sr wave o (nested n) := by
  have hk : sr.ReadsWith (fourcc "moov") BoxData.empty.kind := by
    refine .inl ⟨⟨.empty, []⟩, ?_, rfl⟩
    rw [hm]
    show stdBoxMap.find _ = _
    decide +kernel
  intro n
  induction n with
  | zero => intro wave o; exact ⟨hk, trivial, trivial⟩
  | succ n ih => intro wave o; exact ⟨hk, trivial, ih _ _, trivial⟩

private theorem nested_height (sr : SimpleReader) : ∀ (n : Nat) (path : List BoxType) (o : Nat), ((nested n).readBack sr path o).height = n + 1 := by
  intro n
  induction n with
  | zero => intro path o; rfl
  | succ n ih =>
    intro path o
    rw [nested, Tree.readBack, Tree.height, Tree.readBackList, Tree.readBackList, Tree.heightList, Tree.heightList, ih]
    omega

/-- The file of `nested n` and what is read from it. -/
theorem nested_read (n : Nat) (hn : 16 * (n + 1) < 2 ^ 63) (file : Bool) (env : Nat → Env) :
    ({ file := file, env := env, map := stdBoxMap, data := Tree.encodeList [nested n] } : SimpleReader).read =
      some ⟨Tree.headersList (Tree.readBackList { file := file, env := env, map := stdBoxMap, data := Tree.encodeList [nested n] } [] 0 [nested n]),
        .ok (Tree.readBackList { file := file, env := env, map := stdBoxMap, data := Tree.encodeList [nested n] } [] 0 [nested n])⟩ ∧
    (Tree.encodeList [nested n]).length ≤ 16 * (n + 1) ∧
    (8 * (n + 1) < 2 ^ 32 → (Tree.encodeList [nested n]).length = 8 * (n + 1)) := by
  have hs := nested_surviving { file := file, env := env, map := stdBoxMap, data := Tree.encodeList [nested n] } rfl n false 0
  obtain ⟨t0, t1, t2⟩ := nested_total n
  have ht : Tree.totalList [nested n] = (nested n).total := by rw [Tree.totalList_cons, Tree.totalList]; omega
  have hr := C61_any_forest { file := file, env := env, map := stdBoxMap, data := Tree.encodeList [nested n] } [nested n] rfl
    (by rw [ht]; omega) ⟨hs, trivial⟩
  have hh : ∀ (n : Nat), (nested n).All Tree.Encodable := by
    intro n
    induction n with
    | zero => exact ⟨⟨trivial, trivial⟩, trivial⟩
    | succ n ih => exact ⟨⟨trivial, trivial⟩, ih, trivial⟩
  have hlen : (Tree.encodeList [nested n]).length = (nested n).total := by
    rw [Tree.encodeList_length [nested n] ⟨hh n, trivial⟩, ht]
  exact ⟨hr, by omega, by omega⟩

/-- **C88** No stack is large enough: for every number of nested calls there is a file, of at most sixteen bytes per level, exactly eight
below 4 GiB, that is accepted and needs one more. -/
theorem C88_no_stack_suffices (n : Nat) (hn : 16 * (n + 1) < 2 ^ 63) (file : Bool) (env : Nat → Env) :
    ∃ d : List Byte, d.length ≤ 16 * (n + 1) ∧ (8 * (n + 1) < 2 ^ 32 → d.length = 8 * (n + 1)) ∧
      (∃ vs ts, ({ file := file, env := env, map := stdBoxMap, data := d } : SimpleReader).read = some ⟨vs, .ok ts⟩ ∧
        Tree.heightList ts = n + 1) ∧
      ({ file := file, env := env, map := stdBoxMap, data := d } : SimpleReader).readStack n = none := by
  obtain ⟨hr, hlen, hlen8⟩ := nested_read n hn file env
  have hd : Tree.heightList (Tree.readBackList { file := file, env := env, map := stdBoxMap, data := Tree.encodeList [nested n] } [] 0 [nested n]) = n + 1 := by
    rw [Tree.readBackList, Tree.readBackList, Tree.heightList, Tree.heightList, nested_height]
    omega
  refine ⟨Tree.encodeList [nested n], hlen, hlen8, ⟨_, _, hr, hd⟩, ?_⟩
  rw [C88_exact _ _ _ hr, hd, if_neg (by omega)]

end Mp4
