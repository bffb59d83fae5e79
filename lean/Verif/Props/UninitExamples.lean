import Verif.Props.Uninit
import Verif.Props.HeldExamples

/-! # Examples for C87 -/

namespace Mp4
open Spec

/-! ## A file with an uninitialised member in every box -/

/-- Another content of the uninitialised members. -/
def otherEnv : Env := { Conformance.junkEnv with
  sbgp := 3, tfhd := ⟨⟨1, 2, 3, 4⟩, 5, 6, 7, 8, 9, 10⟩, audio := { Conformance.junkEnv.audio with channel_count := 7 } }

theorem otherEnv_fresh : otherEnv.Fresh := ⟨rfl, rfl, rfl, ⟨rfl, rfl⟩, ⟨rfl, rfl⟩, rfl, ⟨rfl, rfl, rfl, rfl⟩⟩

/-- A string with the given bytes; the members of all boxes contain `env`. -/
def readerWith (env : Env) (d : List Byte) : SimpleReader := { file := false, env := fun _ => env, map := stdBoxMap, data := d }

/-- A `tfhd` box without any of the optional fields, an `sbgp` box of version 0. -/
def optionalFile : List Byte := [0, 0, 0, 16, 0x74, 0x66, 0x68, 0x64, 0, 0, 0, 0, 0, 0, 0, 1,
  0, 0, 0, 20, 0x73, 0x62, 0x67, 0x70, 0, 0, 0, 0, 0x72, 0x6f, 0x6c, 0x6c, 0, 0, 0, 0]

/-- `base_data_offset` of the first box. -/
def firstOffset (sr : SimpleReader) : Option Nat :=
  match sr.read with | some ⟨_, .ok (.node b _ _ :: _)⟩ => (match b.data with | .tfhd t => some t.base_data_offset.toNat | _ => none) | _ => none

/-- The objects are different, and nothing of it is seen. -/
example : firstOffset (readerWith Conformance.junkEnv optionalFile) = some 0x5a5a5a5a ∧ firstOffset (readerWith otherEnv optionalFile) = some 6 ∧
    ∃ vs ts us, (readerWith Conformance.junkEnv optionalFile).read = some ⟨vs, .ok ts⟩ ∧ (readerWith otherEnv optionalFile).read = some ⟨vs, .ok us⟩ ∧
      vs.length = 2 ∧ Tree.AlikeList ts us := by
  refine ⟨by decide +kernel, by decide +kernel, ?_⟩
  have hc : (match (readerWith Conformance.junkEnv optionalFile).read with
    | some ⟨vs, .ok _⟩ => decide (vs.length = 2 ∧ ∀ h ∈ vs, h.type ≠ fourcc "sgpd") | _ => false) = true := by decide +kernel
  have key := C87_no_sgpd false optionalFile (fun _ => Conformance.junkEnv) (fun _ => otherEnv) (fun _ => junkEnv_fresh) (fun _ => otherEnv_fresh)
  unfold readerWith at *
  generalize ({ file := false, env := fun _ => Conformance.junkEnv, map := stdBoxMap, data := optionalFile } : SimpleReader).read = x at *
  match x, hc with
  | some ⟨vs, .ok ts⟩, hc =>
    obtain ⟨h1, h2⟩ := of_decide_eq_true hc
    obtain ⟨res', k1, k2⟩ := key vs (.ok ts) rfl h2
    cases res' with
    | error e => exact k2.elim
    | ok us => exact ⟨vs, ts, us, rfl, k1, h1, k2⟩

/-! ## The exceptions are real -/

/-- Members contain these bits; `default_length` of `sgpd` boxes contains `n`. -/
def junkLength (n : BitVec 32) : Env := { Conformance.junkEnv with sgpd := { Conformance.junkEnv.sgpd with default_length := n } }

/-- An `sgpd` box of version 0 with one alternative startup entry: the length of the entry is in no field. -/
def noLengthFile : List Byte := [0, 0, 0, 32, 0x73, 0x67, 0x70, 0x64, 0, 0, 0, 0, 0x61, 0x6c, 0x73, 0x74, 0, 0, 0, 0, 0, 0, 0, 1,
  0, 0, 0, 0, 0, 1, 0, 1]

/-- Accepted? -/
def accepts (sr : SimpleReader) : Bool := match sr.read with | some ⟨_, .ok _⟩ => true | _ => false

/-- **C87** The exception is real: the file is accepted when the uninitialised `default_length` happens to contain 8, refused when it
contains 7. -/
theorem C87_sgpd_witness : accepts (readerWith (junkLength 8) noLengthFile) = true ∧ accepts (readerWith (junkLength 7) noLengthFile) = false ∧
    NoLength (slice noLengthFile 8 24) := by
  refine ⟨by decide +kernel, by decide +kernel, by unfold NoLength; decide +kernel⟩

/-- A `wave` box with an `mp4a` box of 2 bytes. -/
def waveFile : List Byte := [0, 0, 0, 18, 0x77, 0x61, 0x76, 0x65, 0, 0, 0, 10, 0x6d, 0x70, 0x34, 0x61, 1, 2]

/-- The bytes that saving the accepted boxes leaves in an empty stream. -/
def savedBytes (sr : SimpleReader) : Option (List Byte) :=
  match sr.read with | some ⟨_, .ok ts⟩ => some (Tree.writeList ts ⟨[], 0⟩).2.2.data | _ => none

/-- **C87** Below a `wave` box the saved file shows a member that was never given a value (`channel_count`). -/
theorem C87_wave_witness : ∃ p q, savedBytes (readerWith Conformance.junkEnv waveFile) = some p ∧ savedBytes (readerWith otherEnv waveFile) = some q ∧
    p ≠ q := by
  have hc : (match savedBytes (readerWith Conformance.junkEnv waveFile), savedBytes (readerWith otherEnv waveFile) with
    | some p, some q => decide (p ≠ q) | _, _ => false) = true := by decide +kernel
  generalize savedBytes (readerWith Conformance.junkEnv waveFile) = x at *
  generalize savedBytes (readerWith otherEnv waveFile) = y at *
  match x, y, hc with
  | some p, some q, hc => exact ⟨p, q, rfl, rfl, of_decide_eq_true hc⟩

end Mp4
