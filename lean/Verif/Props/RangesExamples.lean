import Verif.Props.Ranges
import Verif.Props.ReadMovieExamples

/-! # Concrete cases of C96 -/

namespace Mp4.Example
open Spec

/-- The program `good` meets both sides. -/
example : ∃ s es, SimpleWriter.session ⟨[], 0⟩ ftyp 1000 3000 1 good = .ok s ∧ Spec.Expands [] good es ∧
    ∃ w, SimpleWriter.finish s = .ok w ∧ ∃ (file : Bool) (env : Nat → Env) (moov : Tree),
      Spec.ReadsMovie { file, env, data := w.os.data } (Spec.simpleTypes (Spec.mdat es)) ftyp (Spec.mdat es) moov ∧
      Spec.EachTrak (fun a ss trak => Spec.Parameters Spec.inFile a ss.length trak) good es moov := by
  obtain ⟨s, es, h1, h2, h3⟩ := C96_simple ⟨[], 0⟩ rfl ftyp 1000 3000 1 good (by decide) (by
    rw [good_asked]
    intro a ha
    simp only [List.mem_cons, List.not_mem_nil, or_false] at ha
    rcases ha with rfl | rfl <;> trivial)
  have he := good_unique es h2
  subst he
  have hs : s = simpleSession good := by unfold simpleSession; rw [h1]
  exact ⟨s, _, h1, h2, (h3 (by rw [hs]; exact Nat.lt_of_le_of_lt (m := 2000) (by decide +kernel) (by decide))
    (fun i => by have := events_count i; omega) (fun i x hx => by have := events_size i x hx; omega)).1 good_fits⟩

/-- An AV1 track with the profile 8, which needs four bits. -/
def profile8 : Codec := .av1 640 480 ⟨8, 0, 0, 0, 0, 0, []⟩

def profile8Calls : List Call := [.getAndUpdateNextTrackID, .newTrack ⟨1000, 3000, 3000, 1, 0, 1⟩ profile8]

/-- The writer takes it … -/
theorem profile8_taken : ((SimpleWriter.session ⟨[], 0⟩ ftyp 1000 3000 1 profile8Calls).toOption.map fun s => s.tracks.length) = some 1 := by
  decide +kernel

/-- … but no file says so. -/
theorem profile8_lost (sr : SimpleReader) (types : List String) (samples : List Byte) (moov : Tree) (P : Precision)
    (hm : ReadsMovie sr types ftyp samples moov) :
    ¬ EachTrak (fun a ss trak => Parameters P a ss.length trak) profile8Calls [] moov := by
  intro h
  have ha : asked profile8Calls = [⟨⟨1000, 3000, 3000, 1, 0, 1⟩, profile8, 0, []⟩] := rfl
  have := C96_only sr types ftyp samples moov P profile8Calls [] hm h (by
    rw [ha]
    intro a ha
    rw [List.mem_singleton] at ha
    subst ha
    trivial) _ (by rw [ha]; exact List.mem_singleton_self _)
  exact absurd this.1 (by decide)

/-- A buffer with the same sequence parameter set 32 times. -/
def manySPS : List (Bool × List Byte) := List.replicate 32 (true, [0x67, 0x42, 0xc0, 0x1f, 0x8c, 0x68])

theorem manySPS_units : Units manySPS := by
  refine ⟨by decide, ?_, ?_⟩
  · intro u hu
    rw [List.eq_of_mem_replicate hu]
    unfold NalOk
    decide +kernel
  · intro u hu
    rw [List.eq_of_mem_replicate (List.mem_of_getLast? hu)]
    decide

/-- No file has a sample entry that says what an H.264 track says after this buffer. -/
theorem manySPS_lost (sr : SimpleReader) (vs : List BoxHeader) (ts : List Tree) (hr : sr.read = some ⟨vs, .ok ts⟩) (entry : Tree)
    (hin : ∀ b ∈ boxesOf entry, b ∈ boxesOfList ts) :
    ¬ Entry ⟨⟨90000, 3000, 3000, 1, 0, 1⟩, .h264 640 480 ⟨1, 66, 0, 30, [], []⟩, 0, [annexB manySPS]⟩ entry := by
  rintro ⟨-, c, h1, -, -, -, -, h2⟩
  have := (inRange_at h1 (fun b hb => C96_file sr vs ts hr b (hin b hb))).1
  have e := h2 [manySPS] rfl (by
    intro us hus
    rw [List.mem_singleton] at hus
    subst hus
    exact manySPS_units)
  have e' := congrArg (fun c : H264Config => c.sequence_parameter_sets.length) e
  dsimp only at e'
  rw [e'] at this
  exact absurd this (by decide +kernel)

end Mp4.Example
