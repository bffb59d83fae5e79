import Verif.Props.Faststart
import Verif.Props.WriterExamples

/-! # Concrete programs for C39-C43 -/

namespace Mp4

namespace Example

/-- The state after the calls. -/
def faststartSession (calls : List Call) : Session FaststartWriter :=
  match FaststartWriter.session ⟨[], 0⟩ ftyp 1000 3000 1 calls with
  | .error _ => ⟨[], FaststartWriter.new ⟨[], 0⟩ ftyp 1000 3000 1⟩
  | .ok s => s

/-- C39 applied to `good`: all its hypotheses hold. -/
theorem good_found_faststart : ∃ s w moov, FaststartWriter.session ⟨[], 0⟩ ftyp 1000 3000 1 good = .ok s ∧
    FaststartWriter.finish s = .ok w ∧
    w.os.data = Tree.encodeList (Spec.faststartFile ftyp [1, 2, 3, 4, 5, 10, 11, 12, 13, 6] moov) ∧
    (Spec.traks moov).map (Spec.trakSamples w.os.data) = [some [[1, 2, 3], [4, 5], [6]], some [[10, 11, 12, 13]]] := by
  obtain ⟨s, es, h1, h2, h3⟩ := C39_samples_found ⟨[], 0⟩ rfl ftyp 1000 3000 1 good good_disciplined (by decide)
  have he := good_unique es h2
  subst he
  have hs : s = faststartSession good := by unfold faststartSession; rw [h1]
  obtain ⟨w, moov, k1, k2, k3⟩ := h3
    (by rw [hs]; exact Nat.lt_of_le_of_lt (m := 2000) (by decide +kernel) (by decide))
    (fun i => by have := events_count i; omega) (fun i x hx => by have := events_size i x hx; omega)
  exact ⟨s, w, moov, h1, k1, k2, k3⟩

/-- C42 applied to `good`: the chunk offsets of the two tracks. -/
theorem good_offsets_faststart : ∃ s w moov, FaststartWriter.session ⟨[], 0⟩ ftyp 1000 3000 1 good = .ok s ∧
    FaststartWriter.finish s = .ok w ∧
    w.os.data = Tree.encodeList (Spec.faststartFile ftyp [1, 2, 3, 4, 5, 10, 11, 12, 13, 6] moov) ∧
    (Spec.traks moov).map Spec.trakOffsets =
      [some ([0, 9].map (· + (24 + moov.total + 8))), some ([5].map (· + (24 + moov.total + 8)))] := by
  obtain ⟨s, es, h1, h2, h3⟩ := C42_offsets ⟨[], 0⟩ rfl ftyp 1000 3000 1 good (by decide)
  have he := good_unique es h2
  subst he
  have hs : s = faststartSession good := by unfold faststartSession; rw [h1]
  obtain ⟨w, moov, k1, k2, k3⟩ := h3
    (by rw [hs]; exact Nat.lt_of_le_of_lt (m := 2000) (by decide +kernel) (by decide))
  refine ⟨s, w, moov, h1, k1, k2, ?_⟩
  rw [k3, hs]
  have : (faststartSession good).tracks.map (fun t => t.finalize.chunk_infos.map (·.offset.toNat)) = [[0, 9], [5]] := by decide +kernel
  have e : ∀ l : List Track, ∀ n, l.map (fun t => some (t.finalize.chunk_infos.map fun c => c.offset.toNat + n)) =
      (l.map (fun t => t.finalize.chunk_infos.map (·.offset.toNat))).map fun x => some (x.map (· + n)) := by
    intro l n; simp
  rw [e, this]
  rfl

end Example

end Mp4
