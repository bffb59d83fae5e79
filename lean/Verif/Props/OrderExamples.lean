import Verif.Props.Order
import Verif.Props.FaststartExamples

/-! # Concrete programs for C81 -/

namespace Mp4.Example

/-- How the calls of a program end, one after the other. -/
def simpleEnds (w : SimpleWriter) : List SimpleCall → List Ends
  | [] => []
  | c :: cs =>
    match w.step c with
    | .ok w' => .returned :: simpleEnds w' cs
    | .error e => [Ends.of (α := Unit) (.error e)]

def faststartEnds (s : OpenFaststart) : List FaststartCall → List Ends
  | [] => []
  | c :: cs => (s.step c).1 :: faststartEnds (s.step c).2 cs

def aSimple : SimpleWriter := SimpleWriter.new ⟨[], 0⟩ ftyp 1000 3000 1
def aFaststart : OpenFaststart := { w := FaststartWriter.new ⟨[], 0⟩ ftyp 1000 3000 1 }

/-- The tracks of the program `good`. -/
def goodTracks : List Track := (faststartSession good).tracks

/-- A usual program, and one that goes on afterwards: everything returns. -/
theorem simple_usual : simpleEnds aSimple [.getAndUpdateNextTrackID, .writeFtypBox, .addMdatData [1, 2], .tellCurrentMdatOffset,
    .appendTrakAndUdtaBoxInfo goodTracks, .writeFreeBoxAndMdatHeader, .writeMoovBox, .appendUdtaBoxInfo ⟨1, 0, [65]⟩, .writeMoovBox] =
    List.replicate 9 .returned := by decide +kernel

/-- `writeFtypBox` forgotten. -/
theorem simple_forgotten : simpleEnds aSimple [.addMdatData [1, 2], .writeMoovBox] =
    [.returned, .undefined "m_ftyp_size is not initialised"] := by decide +kernel

/-- `C81_simple` says so too. -/
example : ∃ what, (aSimple.addMdatData [1, 2]).step .writeMoovBox = .error (.ub what) :=
  (C81_simple ⟨[], 0⟩ ftyp 1000 3000 1 [.addMdatData [1, 2]] _ (.call (h := []) .start rfl) .writeMoovBox).1 (by simp [Spec.tooEarlySimple])

example : ∃ w, SimpleWriter.After aSimple [.writeFtypBox, .writeMoovBox, .writeFreeBoxAndMdatHeader] w :=
  (C81_simple_program ⟨[], 0⟩ ftyp 1000 3000 1 _).mpr (by
    intro a c b e
    cases a with
    | nil => cases e; exact fun h => h
    | cons x a =>
      injection e with e1 e2
      subst e1
      cases c <;> simp [Spec.tooEarlySimple])

/-- A usual program with a `FaststartWriter`. -/
theorem faststart_usual : faststartEnds aFaststart [.writeFtypBox, .addMdatData [1, 2], .appendTrakAndUdtaBoxInfo goodTracks,
    .writeMoovBox, .writeMdatHeader, .copyMdatData] = List.replicate 6 .returned := by decide +kernel

/-- More meta data added after the boxes were laid out. -/
theorem faststart_not_laid_out : faststartEnds aFaststart [.writeFtypBox, .appendTrakAndUdtaBoxInfo goodTracks,
    .appendUdtaBoxInfo ⟨1, 0, [65]⟩, .writeMoovBox] = [.returned, .returned, .returned, .undefined "m_header is null"] := by decide +kernel

/-- ... but added before, it is just lost. -/
theorem faststart_too_early_udta : faststartEnds aFaststart [.writeFtypBox, .appendUdtaBoxInfo ⟨1, 0, [65]⟩,
    .appendTrakAndUdtaBoxInfo goodTracks, .writeMoovBox] = List.replicate 4 .returned := by decide +kernel

/-- Sample data after the copy, and the two ways to remove the file twice. -/
theorem faststart_after_copy : faststartEnds aFaststart [.copyMdatData, .addMdatData [1]] =
    [.returned, .undefined "fwrite on a closed FILE"] := by decide +kernel

theorem faststart_removed_twice : faststartEnds aFaststart [.deleteIntermediateFile, .deleteIntermediateFile, .copyMdatData] =
    [.returned, .threw OpenFaststart.gone, .threw OpenFaststart.gone] := by decide +kernel

/-- The exception of the loop, and the way out of it. -/
theorem faststart_shrink : faststartEnds aFaststart [.writeFtypBox, .appendTrakAndUdtaBoxInfo goodTracks, .appendTrakAndUdtaBoxInfo [],
    .writeMoovBox, .appendTrakAndUdtaBoxInfo []] =
    [.returned, .returned, .threw OpenFaststart.shrink, .returned, .returned] := by decide +kernel

/-- The hypotheses of `C81_faststart` for a history with an exception. -/
example : (∃ what, ((aFaststart.step .deleteIntermediateFile).2.step .deleteIntermediateFile).2.step (.addMdatData [1]) = (.undefined what, aFaststart)) →
    False := by
  rintro ⟨what, h⟩
  have ha : OpenFaststart.After aFaststart [.deleteIntermediateFile, .deleteIntermediateFile]
      ((aFaststart.step .deleteIntermediateFile).2.step .deleteIntermediateFile).2 :=
    .call (h := [.deleteIntermediateFile]) (.call (h := []) .start (fun _ h => by cases h)) (fun _ h => by cases h)
  have := (C81_faststart ⟨[], 0⟩ ftyp 1000 3000 1 _ _ ha (.addMdatData [1])).1 ⟨what, by rw [h]⟩
  simp [Spec.undefinedFaststart] at this

/-- And of `C81_faststart_throws`, `C81_removed_once`. -/
example : (aFaststart.step .copyMdatData).1 = .returned := by
  have := (C81_removed_once ⟨[], 0⟩ ftyp 1000 3000 1 [] aFaststart .start).2
  exact this.mpr (by simp)

example : (aFaststart.step .deleteIntermediateFile).1 = .returned := by
  rcases C81_faststart_throws ⟨[], 0⟩ ftyp 1000 3000 1 [] aFaststart .start .deleteIntermediateFile (fun h => h) with h | ⟨-, h, -⟩ | ⟨⟨_, h⟩, -⟩
  · exact h
  · simp at h
  · cases h

example : ¬ ∃ s, OpenFaststart.After aFaststart [.writeFtypBox, .writeMoovBox] s := by
  intro h
  have := (C81_faststart_program ⟨[], 0⟩ ftyp 1000 3000 1 _).mp h [.writeFtypBox] .writeMoovBox [] rfl
  refine this (.inr ?_)
  intro hl
  obtain ⟨ts, h⟩ := Spec.laidOut_mem hl
  simp at h

end Mp4.Example
