import Verif.Props.Crash
import Verif.Props.FaultsExamples

/-! # Concrete stopped programs for C71 -/

namespace Mp4
namespace Example

/-- What the program `good` with `SimpleWriter` leaves behind when it is stopped after `n` bytes. -/
def simpleStopped (n : Nat) : Option (List Byte) :=
  match FaultySimple.session Device.fine ⟨[], 0⟩ ftyp 1000 3000 1 good with
  | .error _ => none
  | .ok s =>
    match FaultySimple.finish s with
    | .error _ => none
    | .ok x => some (fileAfter x.s.log n)

/-- The program with `FaststartWriter`. -/
def faststartStopped (n : Nat) : Option (List Byte) :=
  match FaultyFaststart.session Device.fine ⟨[], 0⟩ ftyp 1000 3000 1 good with
  | .error _ => none
  | .ok s =>
    match FaultyFaststart.finish s with
    | .error _ => none
    | .ok x => some (fileAfter x.s.log n)

/-- Stopped after three bytes of samples: `ftyp`, 16 zeros, and the three bytes. -/
example : (simpleStopped 27).map (fun l => (l.length, l.drop 24)) = some (43, List.replicate 16 0 ++ (Spec.mdat events).take 3) := by
  decide +kernel

/-- Stopped inside the 16 bytes between `ftyp` and the samples. -/
example : (simpleStopped 40).map (fun l => (l.length, (l.drop 24).take 16)) = some (50, [0, 0, 0, 8, 102, 114, 0, 0, 0, 0, 0, 0, 0, 0, 0, 0]) := by
  decide +kernel

/-- The hypotheses of C71 hold for `good`: every file that is left behind when samples are being added has them, and can be read. -/
example (sr : SimpleReader) (hm : sr.map = stdBoxMap) : ∃ s x, FaultySimple.session Device.fine ⟨[], 0⟩ ftyp 1000 3000 1 good = .ok s ∧
    FaultySimple.finish s = .ok x ∧ (sr.data = fileAfter x.s.log 27 → ∃ vs a b, sr.read = some ⟨vs, .ok [a, b]⟩ ∧
      b.box.data = .opaq ⟨List.replicate 8 0 ++ (Spec.mdat events).take 3⟩) := by
  obtain ⟨s0, es, h1, h2, h3⟩ := C71_simple_read ⟨[], 0⟩ rfl ftyp 1000 3000 1 good (by decide)
  obtain ⟨he, ht⟩ := good_total h1 h2
  obtain ⟨s, x, h4, h5, h6⟩ := h3 (by rw [ht]; decide)
  refine ⟨s, x, h4, h5, fun hd => ?_⟩
  subst he
  obtain ⟨vs, a, b, h7, -, -, -, h8⟩ := (h6 sr 27 24 hm hd (by decide +kernel)).2.1 (by decide +kernel)
  exact ⟨vs, a, b, h7, h8⟩

/-- `FaststartWriter` stopped after 30 bytes: inside `moov`. -/
example : (faststartStopped 30).map (fun l => (l.length, l.drop 28)) = some (30, [109, 111]) := by decide +kernel

end Example
end Mp4
