import Verif.Props.CasesB
import Verif.Props.Rewrite
import Verif.Props.Needed
import Verif.Props.Dump
import Verif.Props.CutOff
import Verif.Props.Faults
import Verif.Props.Crash
import Verif.Props.FaststartExamples

/-! # Concrete cases for C40-C44, C62-C72: each theorem applied where all its hypotheses hold -/

namespace Mp4
open Spec (boxesOfList linesOfList)

/-! ### C40, C41, C44 -/

example : ∃ s w moov, SimpleWriter.session ⟨[], 0⟩ Example.ftyp 1000 3000 1 Example.good = .ok s ∧ SimpleWriter.finish s = .ok w ∧
    w.os.data = Tree.encodeList (Spec.simpleFile Example.ftyp [1, 2, 3, 4, 5, 10, 11, 12, 13, 6] moov) ∧ (Spec.traks moov).length = 2 := by
  obtain ⟨s, es, h1, h2, h3⟩ := C40_layout ⟨[], 0⟩ rfl Example.ftyp 1000 3000 1 Example.good (by decide)
  have he := Example.good_unique es h2
  subst he
  have hs : s = Example.simpleSession Example.good := by unfold Example.simpleSession; rw [h1]
  obtain ⟨w, moov, k1, k2, -, k4⟩ := h3 (by rw [hs]; exact Nat.lt_of_le_of_lt (m := 2000) (by decide +kernel) (by decide))
  exact ⟨s, w, moov, h1, k1, k2, k4⟩

example : ∃ s w moov, FaststartWriter.session ⟨[], 0⟩ Example.ftyp 1000 3000 1 Example.good = .ok s ∧ FaststartWriter.finish s = .ok w ∧
    w.os.data = Tree.encodeList (Spec.faststartFile Example.ftyp [1, 2, 3, 4, 5, 10, 11, 12, 13, 6] moov) ∧ (Spec.traks moov).length = 2 := by
  obtain ⟨s, es, h1, h2, h3⟩ := C41_layout ⟨[], 0⟩ rfl Example.ftyp 1000 3000 1 Example.good (by decide)
  have he := Example.good_unique es h2
  subst he
  have hs : s = Example.faststartSession Example.good := by unfold Example.faststartSession; rw [h1]
  obtain ⟨w, moov, k1, k2, -, k4⟩ := h3 (by rw [hs]; exact Nat.lt_of_le_of_lt (m := 2000) (by decide +kernel) (by decide))
  exact ⟨s, w, moov, h1, k1, k2, k4⟩

/-- More data after the first program. -/
example := C44_never_overwritten ⟨[], 0⟩ rfl Example.ftyp 1000 3000 1 Example.good [.addData 0 99 [7, 8] false] (by decide)

/-! ### C62, C63 -/

/-- What the `avcC` payload with a byte behind the parameter sets gave can be written. -/
example : ∃ b : BoxData, b.writeData.res = .ok (8 * b.getDataSize) ∧ ∃ n s', (BoxData.readData Conformance.junkEnv (fourcc "avcC") false
    .avcC).run caseAvcPayload (bytesBits caseAvcPayload) = .ok ((n, b), s') := by
  obtain ⟨⟨⟨m, b⟩, s'⟩, h⟩ := ok_of_isSome
    ((BoxData.readData Conformance.junkEnv (fourcc "avcC") false .avcC).run caseAvcPayload (bytesBits caseAvcPayload)) (by decide +kernel)
  exact ⟨b, (C62_writable _ _ _ _ _ _ _ _ h).1, m, s', h⟩

def caseUrlPayload : List Byte := [0, 0, 0, 0, 0x68, 0x74, 0x74, 0x70]

/-- A `url ` box without the final NUL. -/
example : ∃ (b : BoxData) (c s' : List Bool), bytesBits caseUrlPayload = c ++ s' ∧ (b.writeData.out = c ∨ b.writeData.out = c ++ bits 0#8) := by
  obtain ⟨⟨⟨m, b⟩, s'⟩, h⟩ := ok_of_isSome
    ((BoxData.readData Conformance.junkEnv (fourcc "url ") false .url).run caseUrlPayload (bytesBits caseUrlPayload)) (by decide +kernel)
  obtain ⟨c, h1, h2⟩ := C62_url _ _ _ _ _ _ _ h
  exact ⟨b, c, s', h1, h2⟩

/-- A QuickTime `meta` box: its first child comes first. -/
def caseMetaPayload : List Byte := [0, 0, 0, 8, 0x68, 0x64, 0x6c, 0x72]

example : ∃ b : BoxData, b.writeData.out = bytesBits [0, 0, 0, 0] ∧ ∃ n s', (BoxData.readData Conformance.junkEnv (fourcc "meta") false
    .metaBox).run caseMetaPayload (bytesBits caseMetaPayload) = .ok ((n, b), s') := by
  obtain ⟨⟨⟨m, b⟩, s'⟩, h⟩ := ok_of_isSome
    ((BoxData.readData Conformance.junkEnv (fourcc "meta") false .metaBox).run caseMetaPayload (bytesBits caseMetaPayload)) (by decide +kernel)
  exact ⟨b, (C62_meta _ _ _ _ _ _ _ h).2, m, s', h⟩

example := C62_stsz_const Conformance.junkEnv (fourcc "stsz") false ⟨0, 0, 0, 0⟩ 100 3 [0, 0, 0, 0, 0, 0, 0, 100, 0, 0, 0, 3] []
  (by decide +kernel) (by decide)

example := C63_which (fourcc "sgpd") false [0, 0, 0, 0, 0x61, 0x6c, 0x73, 0x74] .sgpd (by decide +kernel)

example : (BoxData.readData Conformance.junkEnv (fourcc "ftyp") false .ftyp).run [1, 2, 3, 4, 5, 6, 7, 8, 9]
    (bytesBits [1, 2, 3, 4, 5, 6, 7, 8, 9]) = .error (.exc "Ftyp::readData(): box has invalid length") :=
  (C63_ftyp Conformance.junkEnv (fourcc "ftyp") false [1, 2, 3, 4, 5, 6, 7, 8, 9]).2.1 (by decide) (by decide)

/-! ### C64-C72 -/

theorem caseFile_read : ∃ vs ts, caseFile.read = some ⟨vs, .ok ts⟩ ∧ vs.length = 2 ∧
    (boxesOfList ts).map (·.type) = [fourcc "moov", fourcc "free"] ∧ (boxesOfList ts).all (fun b => match b.data with
      | .mvhd _ | .tkhd _ | .mdhd _ => false
      | _ => true) = true := by
  have hc : (match caseFile.read with
    | some ⟨vs, .ok ts⟩ => decide (vs.length = 2) && decide ((boxesOfList ts).map (·.type) = [fourcc "moov", fourcc "free"]) &&
      (boxesOfList ts).all (fun b => match b.data with
      | .mvhd _ | .tkhd _ | .mdhd _ => false
      | _ => true)
    | _ => false) = true := by decide +kernel
  generalize caseFile.read = r at hc
  match r, hc with
  | some ⟨vs, .ok ts⟩, hc =>
    simp only [Bool.and_eq_true, decide_eq_true_eq] at hc
    exact ⟨vs, ts, rfl, hc.1.1, hc.1.2, hc.2⟩

example : ∃ (vs : List BoxHeader) (ts : List Tree), vs.length = 2 ∧ (linesOfList 0 ts).map (fun l => (l.type, l.offset, l.size)) =
    vs.map (fun h => (h.type, h.offset, h.size)) := by
  obtain ⟨vs, ts, h, hl, -⟩ := caseFile_read
  exact ⟨vs, ts, hl, C64_every_box _ _ _ h⟩

example : ∃ out, caseFile.dump = some (out, .ok ()) := by
  obtain ⟨vs, ts, h, -, -, ha⟩ := caseFile_read
  refine C67_version_0 caseFile vs ts h ?_
  intro b hb
  have := List.all_eq_true.mp ha b hb
  refine ⟨?_, ?_, ?_⟩ <;> intro m hm <;> rw [hm] at this <;> exact absurd this Bool.false_ne_true

/-- A disk that takes nothing, but seeks: the header is lost without a report. -/
example := C69_header_silent ⟨fun _ _ => false, fun _ _ => true⟩ ⟨0, 8, 8, fourcc "free", false⟩ ⟨⟨[], 0⟩, true, 0, [], []⟩ rfl rfl

example := C69_content_reports (Device.full 5) (.stss ⟨⟨0, 0, 0, 0⟩, [1#32]⟩) ⟨⟨[], 0⟩, true, 0, [], []⟩
  ⟨trivial, trivial⟩ rfl

/-- The last sample is in the file once the 8 bytes of the header before it and it have been put. -/
example : (Spec.interrupted [9, 9] (List.replicate 16 0) [1, 2, 3] [7] 5)[2 + 16 + 2]? = some 3 :=
  C71_simple_samples [9, 9] (List.replicate 16 0) [1, 2, 3] [7] (by decide) 5 2 (by decide) (by decide)

/-- `free` and the first 10 bytes of a `moov` box with a child. -/
example : ∃ vs e, SimpleReader.read ⟨true, fun _ => Conformance.junkEnv, stdBoxMap,
      [0, 0, 0, 9, 0x66, 0x72, 0x65, 0x65, 7, 0, 0, 0, 19, 0x6d, 0x6f, 0x6f, 0x76, 0, 0]⟩ = some ⟨vs, .error e⟩ :=
  C72_cut_off_tree _ [.node ⟨fourcc "free", .opaq ⟨[7]⟩, none⟩ [] []]
    (.node ⟨fourcc "moov", .empty, none⟩ [] [.node ⟨fourcc "free", .opaq ⟨[1, 2, 3]⟩, none⟩ [] []]) 10
    ⟨⟨⟨⟨_, rfl⟩, fun _ h => by cases h⟩, trivial⟩, ⟨⟨⟨_, rfl⟩, fun _ h => by cases h⟩, ⟨⟨⟨_, rfl⟩, fun _ h => by cases h⟩, trivial⟩, trivial⟩, trivial⟩
    (by decide +kernel) (by decide) (by decide +kernel) (by decide +kernel)

end Mp4
