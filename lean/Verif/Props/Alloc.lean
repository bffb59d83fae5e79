import Verif.Lemmas.AllocReader
import Verif.Props.Held

/-!
# C83: memory requested while reading, and memory refused

`Model/Alloc.lean`: the readers with the `resize` calls of their vectors; `A.Policy`: an allocator that may refuse any request.
`Spec/Alloc.lean`: `Granted`, `RefusedAtLast`.
-/

namespace Mp4
open Spec

/-- **C83.** For every file and every allocator: `read` either does what it does with unlimited memory, all its requests being granted, or it
ends with `std::bad_alloc` at the first request that is refused, having read some of the headers it would have read.  What it
requests up to then does not depend on the allocator. -/
theorem C83_refused (sr : SimpleReader) (run : Run (List Tree)) (hr : sr.read = some run) :
    ∃ all, sr.readA (fun _ _ => true) = some (run, all) ∧ ∀ g, ∃ out log, sr.readA g = some (out, log) ∧
      ((out = run ∧ log = all ∧ Granted g [] all) ∨
       (out.res = .error (.exc "std::bad_alloc") ∧ out.visits <+: run.visits ∧ RefusedAtLast g [] log ∧ log <+: all)) := by
  obtain ⟨all, -, -, h⟩ := sr.read_follows run hr
  refine ⟨all, ?_, fun g => ?_⟩
  · obtain ⟨out, h1, ⟨h2, -⟩ | ⟨new, -, ⟨a, n, -, -, h4⟩, -⟩⟩ := h (fun _ _ => true)
    · rw [h1, h2]; rfl
    · cases h4
  · obtain ⟨⟨out, log⟩, h1, ⟨h2, h3⟩ | ⟨new, h2, h3, h4, h5, h6⟩⟩ := h g
    · cases h2
      exact ⟨_, _, h1, .inl ⟨rfl, rfl, h3⟩⟩
    · dsimp only at h2 h5 h6
      subst h2
      exact ⟨_, _, h1, .inr ⟨h5, h6, h3, h4⟩⟩

/-- **C83.** No request is for more than 2^32 - 1 elements or eight times the bytes of the file, whatever the file and the allocator. -/
theorem C83_each (sr : SimpleReader) (hl : sr.data.length < 2 ^ 63) (g : A.Policy) :
    ∃ out log, sr.readA g = some (out, log) ∧ ∀ n ∈ log, n < 2 ^ 32 ∨ n ≤ 8 * sr.data.length := by
  obtain ⟨run, hr, -⟩ := C28_terminates sr hl
  obtain ⟨all, hb, -, h⟩ := sr.read_follows run hr
  obtain ⟨⟨out, log⟩, h1, ⟨h2, -⟩ | ⟨new, h2, -, h4, -⟩⟩ := h g
  · cases h2
    exact ⟨_, _, h1, hb⟩
  · dsimp only at h2
    subst h2
    exact ⟨_, _, h1, fun n hn => hb n (h4.subset hn)⟩

/-- **C83.** A file that is accepted requests no more than its objects hold in the end, all requests together; so no more elements than
the file has bytes, not counting the entries of `trun` boxes without fields. -/
theorem C83_accepted (sr : SimpleReader) (hf : ∀ o, (sr.env o).Fresh) (hl : sr.data.length < 2 ^ 63) (vs : List BoxHeader) (ts : List Tree)
    (hr : sr.read = some ⟨vs, .ok ts⟩) :
    ∃ log, sr.readA (fun _ _ => true) = some (⟨vs, .ok ts⟩, log) ∧ log.sum ≤ heldList ts ∧ log.sum ≤ sr.data.length + unbackedList ts := by
  obtain ⟨all, -, hs, h⟩ := sr.read_follows _ hr
  obtain ⟨out, h1, ⟨h2, -⟩ | ⟨new, -, ⟨a, n, -, -, h4⟩, -⟩⟩ := h (fun _ _ => true)
  · rw [h2] at h1
    have k1 := hs ts rfl
    have k2 := C78_file sr hf hl vs ts hr
    exact ⟨all, h1, k1, by omega⟩
  · cases h4

theorem granted_of_sum (g : A.Policy) (M : Nat) (hg : ∀ before n, before.sum + n ≤ M → g before n = true) :
    ∀ (l before : List Nat), before.sum + l.sum ≤ M → Granted g before l := by
  intro l
  induction l with
  | nil => intro _ _; trivial
  | cons n l ih =>
    intro before h
    rw [List.sum_cons] at h
    exact ⟨hg before n (by omega), ih _ (by rw [List.sum_append, List.sum_singleton]; omega)⟩

/-- **C83.** An allocator that can give as many elements as the file has bytes (and as the `trun` boxes without fields have entries)
is enough for every file that is accepted. -/
theorem C83_enough (sr : SimpleReader) (hf : ∀ o, (sr.env o).Fresh) (hl : sr.data.length < 2 ^ 63) (vs : List BoxHeader) (ts : List Tree)
    (hr : sr.read = some ⟨vs, .ok ts⟩) (g : A.Policy)
    (hg : ∀ before n, before.sum + n ≤ sr.data.length + unbackedList ts → g before n = true) :
    ∃ log, sr.readA g = some (⟨vs, .ok ts⟩, log) := by
  obtain ⟨all, hs, h⟩ := C83_refused sr _ hr
  obtain ⟨log, k1, -, k2⟩ := C83_accepted sr hf hl vs ts hr
  rw [hs] at k1
  cases k1
  obtain ⟨out, log', h1, ⟨rfl, -⟩ | ⟨-, -, ⟨granted, n, rfl, h3, h4⟩, h5⟩⟩ := h g
  · exact ⟨_, h1⟩
  · have hsum : (granted ++ [n]).sum ≤ all.sum := by
      obtain ⟨r, rfl⟩ := h5
      rw [List.sum_append (l₁ := granted ++ [n])]
      omega
    rw [List.sum_append, List.sum_singleton] at hsum
    rw [List.nil_append, hg granted n (by omega)] at h4
    cases h4

/-! ### A file of 16 bytes that requests any number of entries -/

theorem A.runC_lift_bind {α β : Type} (g : A.Policy) (p : R α) (f : α → A β) : ∀ (r : Reader) (log : List Nat), ((A.lift p).bind f).runC g r log =
    match p.runC r with
    | .error e => (.error e, log)
    | .ok (a, r') => (f a).runC g r' log := by
  induction p with
  | ret a => intro r log; rfl
  | throw e => intro r log; rfl
  | bit k ih =>
    intro r log
    simp only [A.lift, A.bind, A.runC, R.runC]
    cases r.readBit with
    | error e => rfl
    | ok x => exact ih _ _ _
  | toEnd k ih => intro r log; simp only [A.lift, A.bind, A.runC, R.runC]; exact ih _ _ _
  | tell k ih => intro r log; simp only [A.lift, A.bind, A.runC, R.runC]; exact ih _ _ _
  | seek o k ih =>
    intro r log
    simp only [A.lift, A.bind, A.runC, R.runC]
    split
    · exact ih _ _
    · rfl

theorem A.runC_bind_error {α β : Type} {g : A.Policy} {f : α → A β} {e : Err} {l : List Nat} :
    ∀ {p : A α} {r : Reader} {log : List Nat}, p.runC g r log = (.error e, l) → (p.bind f).runC g r log = (.error e, l) := by
  intro p
  induction p with
  | ret a => intro r log h; cases h
  | throw e => intro r log h; cases h; rfl
  | bit k ih =>
    intro r log h
    rw [A.bind, A.runC]
    rw [A.runC] at h
    cases hb : r.readBit with
    | error e => rw [hb] at h; cases h; rfl
    | ok x => rw [hb] at h; exact ih _ h
  | toEnd k ih => intro r log h; exact ih _ h
  | tell k ih => intro r log h; exact ih _ h
  | seek o k ih =>
    intro r log h
    rw [A.bind, A.runC]
    rw [A.runC] at h
    split
    · rename_i ho
      rw [if_pos ho] at h
      exact ih h
    · rename_i ho
      rw [if_neg ho] at h
      cases h; rfl
  | alloc m k ih =>
    intro r log h
    rw [A.bind, A.runC]
    rw [A.runC] at h
    split
    · rename_i ho
      rw [if_pos ho] at h
      exact ih h
    · rename_i ho
      rw [if_neg ho] at h
      cases h; rfl

/-- The payload of the box: version and flags 0, and `n` as the number of entries. -/
def sttsPayload (n : Nat) : List Byte := toBytes (fbits ⟨0, 0, 0, 0⟩ ++ bits (BitVec.ofNat 32 n))

theorem sttsPayload_bits (n : Nat) : bytesBits (sttsPayload n) = fbits ⟨0, 0, 0, 0⟩ ++ bits (BitVec.ofNat 32 n) := by
  rw [sttsPayload, bytesBits_toBytes _ (by simp [ll])]

theorem sttsPayload_length (n : Nat) : (sttsPayload n).length = 8 := by
  have := congrArg List.length (sttsPayload_bits n)
  simp [ll] at this
  omega

theorem sttsEntry_nil (d : List Byte) : SttsEntry.readData.run d [] = .error .eof := rfl

theorem sttsPayload_run (n : Nat) (h0 : 0 < n) (h : n < 2 ^ 32) :
    Stts.readDataA.runC (fun _ _ => true) (Reader.new ⟨sttsPayload n, 0⟩) [] = (.error .eof, [n]) := by
  have hrem : (Reader.new ⟨sttsPayload n, 0⟩).rem = bytesBits (sttsPayload n) := by simp [Reader.rem, Reader.new, natBits]
  have h1 := R.runC_run FullBox.readVersionAndFlag (Reader.new ⟨sttsPayload n, 0⟩) (Reader.new_inv _ (by simp))
  rw [hrem, sttsPayload_bits] at h1
  have e1 := R.rd_fbits ⟨0, 0, 0, 0⟩ .ret (sttsPayload n) (bits (BitVec.ofNat 32 n))
  rw [R.bind_ret] at e1
  have hdat : (Reader.new ⟨sttsPayload n, 0⟩).is.data = sttsPayload n := rfl
  rw [hdat, e1] at h1
  obtain ⟨r1, k1, k2, k3, k4⟩ := h1
  have h2 := R.runC_run (read_uint 32) r1 k3
  have e2 := read_uint_run 32 (BitVec.ofNat 32 n) r1.is.data []
  rw [List.append_nil] at e2
  rw [k2, e2] at h2
  obtain ⟨r2, l1, l2, l3, -⟩ := h2
  have h3 := R.runC_run (readN SttsEntry.readData n) r2 l3
  have e3 : (readN SttsEntry.readData n).run r2.is.data [] = .error .eof := by
    obtain ⟨m, rfl⟩ : ∃ m, n = m + 1 := ⟨n - 1, by omega⟩
    rw [readN]
    show (R.bind SttsEntry.readData _).run _ _ = _
    rw [R.run_bind, sttsEntry_nil]
  rw [l2, e3] at h3
  have hn : (BitVec.ofNat 32 n).toNat = n := by rw [BitVec.toNat_ofNat]; omega
  show ((A.lift FullBox.readVersionAndFlag).bind _).runC _ _ _ = _
  rw [A.runC_lift_bind, k1]
  show ((A.lift (read_uint 32)).bind _).runC _ _ _ = _
  rw [A.runC_lift_bind, l1]
  show ((A.lift (readN SttsEntry.readData (BitVec.ofNat 32 n).toNat)).bind _).runC _ _ ([] ++ [(BitVec.ofNat 32 n).toNat]) = _
  rw [A.runC_lift_bind, hn, h3]
  rfl

/-- The header of a box `stts` of 16 bytes, and the payload. -/
def sttsFile (n : Nat) : List Byte := beBytes 4 16 ++ BoxType.bytes (fourcc "stts") ++ sttsPayload n

theorem sttsFile_length (n : Nat) : (sttsFile n).length = 16 := by
  simp [sttsFile, sttsPayload_length, beBytes_length, BoxType.bytes]

/-- **C83.** The hypothesis that the file is accepted cannot be dropped: for every number that 32 bits can represent there is a file of 16
bytes that requests as many elements in a single request. -/
theorem C83_unpaid (n : Nat) (h0 : 0 < n) (h : n < 2 ^ 32) (file : Bool) (env : Nat → Env) :
    ∃ d : List Byte, d.length = 16 ∧ ∃ vs,
      (SimpleReader.mk file env stdBoxMap d).readA (fun _ _ => true) = some (⟨vs, .error .eof⟩, [n]) := by
  refine ⟨sttsFile n, sttsFile_length n, [{ offset := 0, size := 16, type := fourcc "stts" }], ?_⟩
  have hh : read_box_header ⟨sttsFile n, 0⟩ = .ok { offset := 0, size := 16, type := fourcc "stts" } :=
    (read_box_header_spec (sttsFile n) 0 (fourcc "stts") (by rw [sttsFile_length]; decide)).1 16 (sttsPayload n) rfl (by decide) (by decide)
  generalize hsr : SimpleReader.mk file env stdBoxMap (sttsFile n) = sr
  have hd : sr.data = sttsFile n := by rw [← hsr]
  have hk : sr.classOf (fourcc "stts") = (.stts, fourcc "stts") := by
    have e : stdBoxMap.getBoxInstance (fourcc "stts") = .known .stts (fourcc "stts") := by decide +kernel
    rw [SimpleReader.classOf, ← hsr]
    dsimp only
    rw [e]
  have hc : sr.readContentA (fun _ _ => true) false { offset := 0, size := 16, type := fourcc "stts" } [] = (.error .eof, [n]) := by
    have hg : ({ offset := 0, size := 16, type := fourcc "stts" } : BoxHeader).getDataSize = 8 := by decide
    have hs : slice (sttsFile n) (0 + 8) 8 = sttsPayload n := by
      have e : sttsFile n = [0, 0, 0, 16, 115, 116, 116, 115] ++ sttsPayload n := by
        rw [sttsFile, show beBytes 4 16 ++ BoxType.bytes (fourcc "stts") = [0, 0, 0, 16, 115, 116, 116, 115] by decide +kernel]
      rw [slice, e]
      show (sttsPayload n).take 8 = _
      exact List.take_of_length_le (by rw [sttsPayload_length]; decide)
    have hrun : (BoxData.readDataA (sr.env 0) (fourcc "stts") false .stts).runC (fun _ _ => true) (Reader.new ⟨sttsPayload n, 0⟩) [] =
        (.error .eof, [n]) := by
      show (A.bind Stts.readDataA _).runC _ _ _ = _
      exact A.runC_bind_error (sttsPayload_run n h0 h)
    rw [SimpleReader.readContentA]
    dsimp only
    rw [hk, hd, hg, sttsFile_length, if_neg (by decide), hs]
    dsimp only
    rw [hrun]
  have hb : sr.readBoxA (fun _ _ => true) (16 + 2) [] false 0 [] =
      some (⟨[{ offset := 0, size := 16, type := fourcc "stts" }], .error .eof⟩, [n]) := by
    rw [SimpleReader.readBoxA]
    dsimp only
    rw [SimpleReader.readBoxBodyA, hd, hh, SimpleReader.onHeaderA, hc, SimpleReader.onContentA]
  rw [SimpleReader.readA, hd, sttsFile_length, SimpleReader.readLoopA, if_pos (by decide), hb]

end Mp4
