import Verif.Lemmas.Held
import Verif.Lemmas.MemoryReader
import Verif.Props.ReadExact
import Verif.Props.Reader
import Verif.Props.Stored

/-!
# C78: how much an accepted file makes the reader hold

`Spec/Held.lean` counts what box objects hold: the elements of all vectors and strings.
-/

namespace Mp4

/-- **C78.** For every class and payload: the object that `readData` returns holds at most one element per byte of the payload,
and at most one per byte that it reports as read -- not counting the entries of a `trun` box none of whose entries has fields. -/
theorem C78_box (env : Env) (hf : env.Fresh) (t : BoxType) (wave : Bool) (k : Kind) (d : List Byte) (m : Nat) (b : BoxData)
    (s' : List Bool) (hr : (BoxData.readData env t wave k).run d (bytesBits d) = .ok ((m, b), s')) :
    b.elements ≤ d.length + b.unbacked ∧ b.elements ≤ m / 8 + b.unbacked := by
  have hp : 8 * b.elements ≤ m + 8 * b.unbacked := BoxData.pays env hf t wave k d _ _ _ hr
  refine ⟨?_, by omega⟩
  by_cases h1 : k = .iods
  · subst h1
    obtain ⟨x, rfl, -⟩ := C25_iods env t wave d m b s' hr
    exact Nat.zero_le _
  by_cases h2 : k = .esds
  · subst h2
    obtain ⟨c, hc, -, hm⟩ := C25_esds env t wave d m b s' hr
    obtain ⟨a, rfl, h'⟩ := box_inv hr
    have := pays_esds env.esds d _ _ _ h'
    dsimp only at this
    show (a.descriptors.map fun d => 1 + d.elements).sum ≤ d.length + 0
    rcases hm with hm | hm <;> omega
  by_cases h3 : k = .avcC
  · subst h3
    obtain ⟨c, hc, -, hm⟩ := C25_avcC env t wave d m b s' hr
    rcases hm with hm | ⟨-, hm⟩ <;> omega
  · have := (C25_exact env t wave k ⟨h1, h2, h3⟩ d m b s' hr).1
    omega

theorem run_held {env : Env} (hf : env.Fresh) {t : BoxType} {wave : Bool} {k : Kind} {d : List Byte} {m : Nat} {b : BoxData} {r : Reader}
    (hr : (BoxData.readData env t wave k).runC (Reader.new ⟨d, 0⟩) = .ok ((m, b), r)) :
    b.elements ≤ d.length + b.unbacked ∧ b.elements ≤ m / 8 + b.unbacked := by
  have hb := C78_box env hf t wave k d
  generalize BoxData.readData env t wave k = p at hr hb
  have hrc := R.runC_run p (Reader.new ⟨d, 0⟩) (Reader.new_inv _ (by simp))
  have hrem : (Reader.new ⟨d, 0⟩).rem = bytesBits d := by simp [Reader.rem, Reader.new, natBits]
  have hdat : (Reader.new ⟨d, 0⟩).is.data = d := rfl
  rw [hrem, hdat, hr] at hrc
  cases hy : p.run d (bytesBits d) with
  | error e => rw [hy] at hrc; cases hrc
  | ok y =>
    obtain ⟨⟨m', a⟩, s⟩ := y
    rw [hy] at hrc
    obtain ⟨r'', e1, -⟩ := hrc
    simp only [Except.ok.injEq, Prod.mk.injEq] at e1
    obtain ⟨⟨rfl, rfl⟩, -⟩ := e1
    exact hb _ _ _ hy

theorem readContent_held (sr : SimpleReader) (hf : ∀ o, (sr.env o).Fresh) (wave : Bool) (h : BoxHeader) (b : Box) (n : Nat)
    (hc : sr.readContent wave h = .ok (b, n)) :
    b.data.elements ≤ n + b.data.unbacked ∧
      b.data.elements ≤ (sr.data.length - (h.offset + h.headerSize)) + b.data.unbacked := by
  have hlen : (slice sr.data (h.offset + h.headerSize) h.getDataSize).length ≤ sr.data.length - (h.offset + h.headerSize) := by
    rw [slice, List.length_take, List.length_drop]
    exact Nat.min_le_right _ _
  rcases Mem.readContent_cases sr wave h with ⟨-, e⟩ | ⟨-, ⟨e, -, e'⟩ | ⟨rbits, data, rd, hrun, ⟨-, e⟩ | ⟨-, e⟩⟩⟩
  · rw [e] at hc; cases hc
  · rw [e'] at hc; cases hc
  · rw [e] at hc; cases hc
  · rw [e] at hc
    simp only [Except.ok.injEq, Prod.mk.injEq] at hc
    obtain ⟨rfl, rfl⟩ := hc
    obtain ⟨k1, k2⟩ := run_held (hf _) hrun
    exact ⟨k2, by dsimp only; omega⟩

open Spec in
theorem readBox_held (sr : SimpleReader) (hf : ∀ o, (sr.env o).Fresh) (hl : sr.data.length < 2 ^ 63) (fuel : Nat) :
    (∀ path wave pos vs size t pos', sr.readBox fuel path wave pos = some ⟨vs, .ok (size, t, pos')⟩ →
      pos + held t ≤ pos' + unbacked t ∧ pos + held t ≤ sr.data.length + unbacked t) ∧
    (∀ n path wave limit done pos vs ts pos', SimpleReader.readLoop (sr.readBox fuel path wave) limit n done pos = some ⟨vs, .ok (ts, pos')⟩ →
      pos + heldList ts ≤ pos' + unbackedList ts ∧ (ts ≠ [] → pos + heldList ts ≤ sr.data.length + unbackedList ts)) := by
  have loop : ∀ fuel, (∀ path wave pos vs size t pos', sr.readBox fuel path wave pos = some ⟨vs, .ok (size, t, pos')⟩ →
        pos + held t ≤ pos' + unbacked t ∧ pos + held t ≤ sr.data.length + unbacked t) →
      ∀ n path wave limit done pos vs ts pos', SimpleReader.readLoop (sr.readBox fuel path wave) limit n done pos = some ⟨vs, .ok (ts, pos')⟩ →
      pos + heldList ts ≤ pos' + unbackedList ts ∧ (ts ≠ [] → pos + heldList ts ≤ sr.data.length + unbackedList ts) := by
    intro fuel ih n path wave limit
    induction n with
    | zero => intro _ _ _ _ _ h; rw [SimpleReader.readLoop] at h; cases h
    | succ n ihn =>
      intro done pos vs ts pos' hr
      rw [SimpleReader.readLoop] at hr
      split at hr
      · split at hr
        · cases hr
        · cases hr
        · rename_i us size t e hk
          obtain ⟨k1, k2⟩ := ih _ _ _ _ _ _ _ hk
          split at hr
          · cases hr
          · cases hr
          · rename_i ws ts' e' hq
            cases hr
            obtain ⟨q1, q2⟩ := ihn _ _ _ _ _ hq
            rw [heldList, unbackedList]
            refine ⟨by omega, fun _ => ?_⟩
            cases ts' with
            | nil => rw [heldList, unbackedList]; omega
            | cons t' ts' =>
              have := q2 (by simp)
              omega
      · cases hr
        exact ⟨by simp [heldList], fun h => absurd rfl h⟩
  suffices h : ∀ path wave pos vs size t pos', sr.readBox fuel path wave pos = some ⟨vs, .ok (size, t, pos')⟩ →
      pos + held t ≤ pos' + unbacked t ∧ pos + held t ≤ sr.data.length + unbacked t from ⟨h, loop fuel h⟩
  induction fuel with
  | zero => intro _ _ _ _ _ _ _ h; rw [SimpleReader.readBox] at h; cases h
  | succ fuel ih =>
    intro path wave pos vs size t pos' hr
    rw [sr.readBox_succ] at hr
    generalize hh : read_box_header ⟨sr.data, pos⟩ = x at hr
    cases x with
    | error e => rw [sr.body_header_error hh] at hr; cases hr
    | ok h =>
      generalize hc : sr.readContent wave h = y at hr
      cases y with
      | error e => rw [sr.body_content_error hh hc] at hr; cases hr
      | ok x =>
        obtain ⟨b, rbytes⟩ := x
        rw [sr.body_ok hh hc] at hr
        split at hr
        · cases hr
        · cases hr
        · rename_i us leafs e hk
          cases hr
          obtain ⟨q1, q2⟩ := loop fuel ih _ _ _ _ _ _ _ _ _ hk
          obtain ⟨o1, o2, o3, -⟩ := read_box_header_ok sr.data pos h (by omega) hh
          obtain ⟨c1, c2⟩ := readContent_held sr hf wave h b rbytes hc
          rw [held, unbacked]
          have h8 : 8 ≤ h.headerSize := by omega
          cases leafs with
          | nil =>
            rw [heldList, unbackedList] at q1 ⊢
            omega
          | cons t' ts' =>
            have := q2 (by simp)
            omega

/-- **C78.** For every file that `SimpleReader::read` accepts: 8 for every box plus the elements in all vectors and strings of
all boxes together is at most the length of the file -- not counting the entries of `trun` boxes none of whose entries has
fields. -/
theorem C78_file (sr : SimpleReader) (hf : ∀ o, (sr.env o).Fresh) (hl : sr.data.length < 2 ^ 63) (vs : List BoxHeader)
    (ts : List Tree) (hr : sr.read = some ⟨vs, .ok ts⟩) :
    Spec.heldList ts ≤ sr.data.length + Spec.unbackedList ts := by
  rw [SimpleReader.read, SimpleReader.readWith] at hr
  split at hr
  · cases hr
  · cases hr
  · rename_i us us' e hk
    cases hr
    have := (readBox_held sr hf hl _).2 _ _ _ _ _ _ _ _ _ hk
    cases ts with
    | nil => simp [Spec.heldList]
    | cons t ts =>
      have := this.2 (by simp)
      omega

/-- A `trun` box of `n` entries without fields. -/
def trunOf (n : Nat) : Trun := ⟨⟨0, 0, 0, 0⟩, 0, 0, List.replicate n ⟨0, 0, 0, 0⟩⟩

theorem trunOf_size (n : Nat) : (trunOf n).getDataSize = 8 := by
  have h0 : ∀ m, FullBox.checkFlag (trunOf n).toFullBox m = FullBox.checkFlag ⟨0, 0, 0, 0⟩ m := fun _ => rfl
  have h2 : TrunEntry.getSize (⟨0, 0, 0, 0⟩ : FullBox) = 0 := by decide +kernel
  have h1 : ((trunOf n).entries.map fun _ => TrunEntry.getSize (trunOf n).toFullBox).sum = 0 := by
    rw [sum_const, show (trunOf n).toFullBox = ⟨0, 0, 0, 0⟩ from rfl, h2, Nat.zero_mul]
  rw [Trun.getDataSize, h1, h0, h0, if_neg (by decide +kernel), if_neg (by decide +kernel)]

theorem trunOf_elements (n : Nat) (old : Trun) :
    (BoxData.trun ((trunOf n).stored old)).elements = n ∧ (BoxData.trun ((trunOf n).stored old)).unbacked = n := by
  have hl : ((trunOf n).stored old).entries.length = n := by
    show (List.replicate n _).length = n
    exact List.length_replicate
  refine ⟨hl, ?_⟩
  show (if ((trunOf n).stored old).fieldless then ((trunOf n).stored old).entries.length else 0) = n
  rw [hl, if_pos]
  show Trun.fieldless ⟨⟨0, 0, 0, 0⟩, _, _, _⟩ = true
  unfold Trun.fieldless
  dsimp only
  decide +kernel

/-- the file's tree -/
def trunTree (n : Nat) : Tree := .node ⟨fourcc "trun", .trun (trunOf n), none⟩ [] []

theorem trunTree_survives (file : Bool) (env : Nat → Env) (d : List Byte) (n : Nat) (hn : n < 2 ^ 32) :
    Tree.SurvivingList { file, env, data := d } false 0 [trunTree n] := by
  have h1 : SimpleReader.ReadsWith { file, env, data := d } (fourcc "trun") .trun := by
    refine .inl ⟨⟨.trun, [0#8, 1#8]⟩, ?_, rfl⟩
    show stdBoxMap.find _ = _
    decide +kernel
  have h2 : BoxData.Survives (env 0) (fourcc "trun") (false = true) (([] : List Tree) = []) (.trun (trunOf n)) := by
    refine ⟨?_, ?_⟩
    · show (List.replicate n _).length < _
      rw [List.length_replicate]; exact hn
    · intro e he
      obtain rfl := (List.mem_replicate.mp he).2
      refine ⟨by decide, fun _ => rfl, fun _ => rfl, fun _ => rfl, fun _ => rfl⟩
  unfold Tree.SurvivingList trunTree Tree.Surviving
  exact ⟨⟨h1, h2, trivial⟩, trivial⟩

theorem trunTree_total (n : Nat) : (trunTree n).total = 16 := by
  have hin : (trunTree n).inner = 8 := by
    rw [trunTree, Tree.inner]
    show (trunOf n).getDataSize + Tree.totalList [] = 8
    rw [trunOf_size]; rfl
  show (trunTree n).inner + Spec.headerSize (trunTree n).inner = 16
  rw [hin]; decide

theorem trun_typeRead (file : Bool) (env : Nat → Env) (d : List Byte) :
    SimpleReader.typeRead { file, env, data := d } (fourcc "trun") = fourcc "trun" := by
  show (if (stdBoxMap.find (fourcc "trun")).isSome then fourcc "trun" else fourcc "unsu") = _
  rw [if_pos (by decide +kernel)]

/-- **C78.** The exception is needed: for every number of entries below 2^32 there is a file of 16 bytes, a single `trun` box, that
`SimpleReader::read` accepts and for which it holds so many entries. -/
theorem C78_unbacked (file : Bool) (env : Nat → Env) (n : Nat) (hn : n < 2 ^ 32) :
    ∃ d : List Byte, d.length = 16 ∧ ∃ vs box path, ({ file, env, data := d } : SimpleReader).read = some ⟨vs, .ok [.node box path []]⟩ ∧
      box.type = fourcc "trun" ∧ box.data.elements = n ∧ box.data.unbacked = n := by
  have htot := trunTree_total n
  have hlen : (Tree.encodeList [trunTree n]).length = 16 := by
    rw [Tree.encodeList_length [trunTree n] ⟨⟨⟨trivial, trivial⟩, trivial⟩, trivial⟩,
      Tree.totalList_cons, htot]
    rfl
  generalize hd : Tree.encodeList [trunTree n] = d at hlen
  have key := C61_any_forest { file, env, data := d } [trunTree n] hd.symm
    (by rw [Tree.totalList_cons, htot]; decide) (trunTree_survives file env d n hn)
  refine ⟨d, hlen, ?_⟩
  generalize Tree.headersList _ = vs at key
  rw [Tree.readBackList, Tree.readBackList, trunTree, Tree.readBack, Tree.readBackList] at key
  exact ⟨vs, _, _, key, trun_typeRead file env d, trunOf_elements n _⟩

end Mp4
