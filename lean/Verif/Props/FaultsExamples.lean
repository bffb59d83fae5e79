import Verif.Props.Faults

/-! # Concrete programs for C69 -/

namespace Mp4
namespace Example

/-- The program `good` (WriterExamples) with `SimpleWriter` on a device: the file when it ends without an exception. -/
def simpleOn (dev : Device) : Option (List Byte) :=
  match FaultySimple.session dev ⟨[], 0⟩ ftyp 1000 3000 1 good with
  | .error _ => none
  | .ok s =>
    match FaultySimple.finish s with
    | .error _ => none
    | .ok x => some x.s.os.data

/-- The program with `FaststartWriter`. -/
def faststartOn (dev : Device) : Option (List Byte) :=
  match FaultyFaststart.session dev ⟨[], 0⟩ ftyp 1000 3000 1 good with
  | .error _ => none
  | .ok s =>
    match FaultyFaststart.finish s with
    | .error _ => none
    | .ok x => some x.s.os.data

/-- The hypotheses of the theorems on `SimpleWriter` hold for `good`; the file has 1388 bytes. -/
theorem good_total {s0 : Session SimpleWriter} {es : List Event} (h1 : SimpleWriter.session ⟨[], 0⟩ ftyp 1000 3000 1 good = .ok s0)
    (h2 : Spec.Expands [] good es) :
    es = events ∧ Tree.totalList (Spec.simpleFile ftyp (Spec.mdat es) (SimpleWriter.moovOf s0)) = 1388 := by
  have he := good_unique es h2
  subst he
  have hs : s0 = simpleSession good := by unfold simpleSession; rw [h1]
  subst hs
  exact ⟨rfl, by decide +kernel⟩

/-- It is complete on a disk with room for it, and an exception is thrown when one byte is missing. -/
example (n : Nat) : (∃ s x, FaultySimple.session (Device.full n) ⟨[], 0⟩ ftyp 1000 3000 1 good = .ok s ∧ FaultySimple.finish s = .ok x) ↔
    1388 ≤ n := by
  obtain ⟨s0, es, h1, h2, h3⟩ := C69_simple_full_disk ⟨[], 0⟩ rfl ftyp 1000 3000 1 good (by decide)
  obtain ⟨-, ht⟩ := good_total h1 h2
  obtain ⟨w, -, h4, h5⟩ := h3 (by rw [ht]; decide)
  rw [← ht, ← h4]
  exact h5 n

/-- The same by running the model, and on a device that breaks. -/
example : (simpleOn (Device.full 1388)).isSome = true := by decide +kernel
example : simpleOn (Device.full 1387) = none := by decide +kernel
example : simpleOn (Device.breaks 30) = none := by decide +kernel

/-- The calls of `good` on a device that refuses one access, at the first byte of the first sample. -/
def lossy : Option FStream :=
  match FaultySimple.session (Device.hiccup 26 27) ⟨[], 0⟩ ftyp 1000 3000 1 good with
  | .error _ => none
  | .ok s => some s.writer.s

theorem lossy_state : lossy.map (fun s => ((s.os.data.drop 40).take 10, s.refused, s.good, decide (27 ≤ s.tries))) =
    some ([4, 5, 10, 11, 12, 13, 6], [40], true, true) := by decide +kernel

end Example

/-- **C69** The guarantee of `C69_simple_reports` needs a device that does not recover: on one that refuses a single access, when the
first sample is added, the program ends without an exception, all later samples are stored three bytes too early and the three bytes at
the end of the sample data, which were never written, are zero. -/
theorem C69_simple_loses_samples :
    ∃ s x, FaultySimple.session (Device.hiccup 26 27) ⟨[], 0⟩ Example.ftyp 1000 3000 1 Example.good = .ok s ∧
      FaultySimple.finish s = .ok x ∧ (x.s.os.data.drop 40).take 10 = [4, 5, 10, 11, 12, 13, 6, 0, 0, 0] ∧
    ∃ s0 w, SimpleWriter.session ⟨[], 0⟩ Example.ftyp 1000 3000 1 Example.good = .ok s0 ∧ SimpleWriter.finish s0 = .ok w ∧
      (w.os.data.drop 40).take 10 = [1, 2, 3, 4, 5, 10, 11, 12, 13, 6] := by
  obtain ⟨s0, es, h1, h2, h3⟩ := C69_simple_silent ⟨[], 0⟩ rfl Example.ftyp 1000 3000 1 Example.good (by decide)
  obtain ⟨he, ht⟩ := Example.good_total h1 h2
  obtain ⟨w, hw, h4⟩ := h3 (by rw [ht]; decide)
  have hl := Example.lossy_state
  unfold Example.lossy at hl
  cases hs : FaultySimple.session (Device.hiccup 26 27) ⟨[], 0⟩ Example.ftyp 1000 3000 1 Example.good with
  | error e => rw [hs] at hl; cases hl
  | ok s =>
    rw [hs] at hl
    simp only [Option.map_some, Option.some.injEq, Prod.mk.injEq, decide_eq_true_eq] at hl
    obtain ⟨hl1, -, -, hl2⟩ := hl
    obtain ⟨x, hx, h5⟩ := h4 _ s hs (by
      intro t p ht
      have : ¬ t < 27 := by omega
      simp [Device.hiccup, this])
    obtain ⟨-, h6⟩ := h5 24 (by decide +kernel)
    refine ⟨s, x, rfl, hx, ?_, s0, w, h1, hw, ?_⟩
    · have key : ∀ i, i < 10 → x.s.os.data[40 + i]? = some (([4, 5, 10, 11, 12, 13, 6] : List Byte)[i]?.getD 0) := by
        intro i hi
        rw [h6 (40 + i) (by omega) (by rw [he]; show _ < 24 + 16 + 10; omega), ← hl1, List.getElem?_take, if_pos hi, List.getElem?_drop]
      have hlist : ∀ i : Fin 10, some ((([4, 5, 10, 11, 12, 13, 6] : List Byte)[i.val]?).getD 0) =
          ([4, 5, 10, 11, 12, 13, 6, 0, 0, 0] : List Byte)[i.val]? := by decide
      apply List.ext_getElem?
      intro i
      rw [List.getElem?_take]
      split
      · rename_i hi
        rw [List.getElem?_drop, key i hi, hlist ⟨i, hi⟩]
      · rw [List.getElem?_eq_none]
        show 10 ≤ i
        omega
    · obtain ⟨s', w', moov, k1, k2, k3, -⟩ := Example.good_found
      rw [h1] at k1; cases k1
      rw [hw] at k2; cases k2
      obtain ⟨gap, g1, g2, -⟩ := C40_mdat Example.ftyp [1, 2, 3, 4, 5, 10, 11, 12, 13, 6] moov
      have h24 : (Spec.leaf "ftyp" (.ftyp Example.ftyp)).encode.length = 24 := by decide +kernel
      rw [k3, g1, List.append_assoc, List.drop_left' (by rw [List.length_append, h24, g2])]
      rfl

namespace Example

/-- `FaststartWriter`: on a disk that takes `ftyp` and `moov` only the program ends without an exception. -/
example : (faststartOn (Device.full 1362)).isSome = true := by decide +kernel
example : faststartOn (Device.full 1361) = none := by decide +kernel

/-- A header written to a device that refuses everything. -/
example : (BoxHeader.writeF ⟨fun _ _ => false, fun _ _ => true⟩ ⟨0, 24, 8, fourcc "ftyp", false⟩ { os := ⟨[], 0⟩ }).2.2.os.data = [] := by
  decide +kernel

/-- A box whose content is noticed. -/
example : ((BoxData.ftyp ftyp).writeData.runF (Device.full 10) { os := ⟨[], 0⟩ }).2.os.data.length = 10 := by decide +kernel
example : (match ((BoxData.ftyp ftyp).writeData.runF (Device.full 10) { os := ⟨[], 0⟩ }).1 with | .error _ => true | .ok _ => false) =
    true := by decide +kernel

/-- An intermediate file of one byte that cannot be read. -/
example : ∀ n, FaultyFaststart.copyLoop (Device.full 10) (fun _ => false) n 0 (CFile.rewind ⟨[7], 1, false⟩) { os := ⟨[], 0⟩ } = none :=
  C69_copy_never_ends _ _ ⟨[7], 1, false⟩ _ 0 rfl (by simp) (by simp)

end Example
end Mp4
