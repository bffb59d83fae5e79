import Verif.Props.Intermediate
import Verif.Spec.Device

/-! # Concrete cases for C79 -/

namespace Mp4
open Spec

/-- Make the calls one after the other. -/
def runActs : List Act → Interm → Option (List (Act × Outcome) × Interm)
  | [], i => some ([], i)
  | a :: as, i =>
    match (match a with
      | .addMdatData d => some (i.addMdatData d)
      | .tellCurrentMdatOffset => some i.tellCurrentMdatOffset
      | .deleteIntermediateFile => some i.deleteIntermediateFile
      | .copyMdatData => i.copyMdatData 5
      | .other => none) with
    | none => none
    | some (.undefined _, _) => none
    | some (o, j) =>
      match runActs as j with
      | none => none
      | some (h, k) => some ((a, o) :: h, k)

theorem History.cons {i j k : Interm} {a : Act} {o : Outcome} {h : List (Act × Outcome)} (hd : Does a i o j) (hu : ∀ what, o ≠ .undefined what)
    (hh : History j h k) : History i ((a, o) :: h) k := by
  induction hh with
  | start => exact History.call (h := []) .start hd hu
  | call _ hd' hu' ih => exact .call ih hd' hu'

theorem runActs_history (as : List Act) : ∀ (i k : Interm) (h : List (Act × Outcome)), runActs as i = some (h, k) → History i h k := by
  induction as with
  | nil => intro i k h e; cases e; exact .start
  | cons a as ih =>
    intro i k h e
    have key : ∀ (q : Option (Outcome × Interm)), (∀ o j, q = some (o, j) → Does a i o j) →
        (match q with
          | none => none
          | some (.undefined _, _) => none
          | some (o, j) =>
            match runActs as j with
            | none => none
            | some (h, k) => some ((a, o) :: h, k)) = some (h, k) → History i h k := by
      intro q hq e
      match q, hq, e with
      | none, _, e => cases e
      | some (.undefined w, j), _, e => cases e
      | some (.returned v, j), hq, e =>
        dsimp only at e
        cases hr : runActs as j with
        | none => rw [hr] at e; cases e
        | some r =>
          obtain ⟨h', k'⟩ := r
          rw [hr] at e
          cases e
          exact .cons (hq _ _ rfl) (fun _ h => by cases h) (ih _ _ _ hr)
      | some (.threw v r, j), hq, e =>
        dsimp only at e
        cases hr : runActs as j with
        | none => rw [hr] at e; cases e
        | some r =>
          obtain ⟨h', k'⟩ := r
          rw [hr] at e
          cases e
          exact .cons (hq _ _ rfl) (fun _ h => by cases h) (ih _ _ _ hr)
    cases a with
    | addMdatData d => exact key _ (fun o j h => Option.some.inj h) e
    | tellCurrentMdatOffset => exact key _ (fun o j h => Option.some.inj h) e
    | deleteIntermediateFile => exact key _ (fun o j h => Option.some.inj h) e
    | copyMdatData => exact key _ (fun o j h => ⟨5, h⟩) e
    | other => exact key none (fun o j h => by cases h) e

/-- A disk on which the second `fwrite` (the call number 2) finds room for one byte only, and the first `remove` fails. -/
def tightDisk : Libc := { perfect with fwrite := fun t => if t = 2 then 1 else 100, remove := fun t => decide (8 < t) }

def x79 : FaultyFaststart := FaultyFaststart.new Device.fine ⟨[], 0⟩ ⟨fourcc "isom", 512, []⟩ 1000 5 0

def i79 (libc : Libc) : Interm := { libc, present := true, isOpen := true, x := x79 }

example : Interm.construct tightDisk x79 = .object (i79 tightDisk) := rfl

/-- tell; add 3 bytes; add 2 bytes, of which one is stored; add 1 byte; copy, which cannot remove the file; remove it. -/
def acts79 : List Act :=
  [.tellCurrentMdatOffset, .addMdatData [1, 2, 3], .addMdatData [4, 5], .tellCurrentMdatOffset, .addMdatData [6], .copyMdatData,
   .deleteIntermediateFile, .deleteIntermediateFile]

def history79 : List (Act × Outcome) :=
  [(.tellCurrentMdatOffset, .returned (some 0)), (.addMdatData [1, 2, 3], .returned none),
   (.addMdatData [4, 5], .threw "FaststartWriter::addMdatData(): fwrite() failed" 1),
   (.tellCurrentMdatOffset, .returned (some 4)), (.addMdatData [6], .returned none),
   (.copyMdatData, .threw "FaststartWriter::deleteIntermediateFile(): cannot remove the intermediate file" 0),
   (.deleteIntermediateFile, .returned none),
   (.deleteIntermediateFile, .threw "FaststartWriter::deleteIntermediateFile(): cannot remove the intermediate file" 0)]

theorem run79 : ∃ i, History (i79 tightDisk) history79 i ∧ i.x.w.mdat.content = [1, 2, 3, 4, 6] ∧ i.x.w.mdat_data_size = 4 ∧
    i.x.s.os.data = [1, 2, 3, 4, 6] ∧ i.present = false := by
  have h : (match runActs acts79 (i79 tightDisk) with
      | some (h, i) => decide (h = history79 ∧ i.x.w.mdat.content = [1, 2, 3, 4, 6] ∧ i.x.w.mdat_data_size = 4 ∧
          i.x.s.os.data = [1, 2, 3, 4, 6] ∧ i.present = false)
      | none => false) = true := by decide +kernel
  cases hr : runActs acts79 (i79 tightDisk) with
  | none => rw [hr] at h; cases h
  | some r =>
    obtain ⟨h', i⟩ := r
    rw [hr] at h
    obtain ⟨rfl, h2⟩ := of_decide_eq_true h
    exact ⟨i, runActs_history _ _ _ _ hr, h2⟩

/-- `C79_content`: one byte more than counted; and the hypotheses of `C79_place` hold for both pairs of calls. -/
example : history79.flatMap addedBy = [1, 2, 3, 4, 6] ∧ (history79.map countedBy).sum = 4 ∧ (history79.map lostBy).sum = 1 ∧
    history79 = [] ++ (.tellCurrentMdatOffset, .returned (some 0)) :: (.addMdatData [1, 2, 3], .returned none) :: history79.drop 2 ∧
    history79 = history79.take 3 ++ (.tellCurrentMdatOffset, .returned (some 4)) :: (.addMdatData [6], .returned none) :: history79.drop 5 := by
  decide +kernel

example : slice [1, 2, 3, 4, 6] (4 : BitVec 64).toNat 1 = ([6] : List Byte) := by decide

/-- `C79_undefined`: a call after the `FILE` was closed. -/
example : ∃ i, (∃ h, History (i79 perfect) h i ∧ Closed h) ∧ Does .tellCurrentMdatOffset i (.undefined "ftell on a closed FILE") i := by
  have h : (match runActs [.addMdatData [7], .copyMdatData] (i79 perfect) with
      | some (h, i) => decide (h = [(.addMdatData [7], .returned none), (.copyMdatData, .returned none)] ∧ i.isOpen = false)
      | none => false) = true := by decide +kernel
  cases hr : runActs [.addMdatData [7], .copyMdatData] (i79 perfect) with
  | none => rw [hr] at h; cases h
  | some r =>
    obtain ⟨h', i⟩ := r
    rw [hr] at h
    obtain ⟨rfl, h2⟩ := of_decide_eq_true h
    refine ⟨i, ⟨_, runActs_history _ _ _ _ hr, .inl ⟨none, by simp⟩⟩, ?_⟩
    show i.tellCurrentMdatOffset = _
    rw [Interm.tellCurrentMdatOffset, if_pos h2]

/-- `C79_undefined`, the other case: a read error in the middle of a copy to a broken stream, then `addMdatData`. -/
example : ∃ i j, (∃ h, History { i79 perfect with libc := { perfect with fread := fun _ => false }, x := { x79 with s := { x79.s with good := false } } } h i ∧
    OutputFailed h) ∧ Does (.addMdatData [9]) i (.undefined "fwrite directly after fread") j := by
  have h : (match runActs [.addMdatData [7], .copyMdatData]
        { i79 perfect with libc := { perfect with fread := fun _ => false }, x := { x79 with s := { x79.s with good := false } } } with
      | some (h, i) => decide (h = [(.addMdatData [7], .returned none),
          (.copyMdatData, .threw "FaststartWriter::copyMdatData(): copying mdat data failed" 0)] ∧ i.isOpen = true ∧ i.reading = true)
      | none => false) = true := by decide +kernel
  cases hr : runActs [.addMdatData [7], .copyMdatData]
        { i79 perfect with libc := { perfect with fread := fun _ => false }, x := { x79 with s := { x79.s with good := false } } } with
  | none => rw [hr] at h; cases h
  | some r =>
    obtain ⟨h', i⟩ := r
    rw [hr] at h
    obtain ⟨rfl, h2, h3⟩ := of_decide_eq_true h
    refine ⟨i, i, ⟨_, runActs_history _ _ _ _ hr, 0, by simp⟩, ?_⟩
    show i.addMdatData [9] = _
    rw [Interm.addMdatData, if_neg (by rw [h2]; decide), if_pos h3]

end Mp4
