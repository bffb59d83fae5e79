import Verif.Props.Repeated
import Verif.Props.OrderExamples

/-! # Concrete programs for C82 -/

namespace Mp4.Example

/-- The chunk offsets in the `moov` box of a writer. -/
def offsetsOf (w : FaststartWriter) : List (Option (List Nat)) :=
  match w.moov with
  | none => []
  | some moov => (Spec.traks moov).map Spec.trakOffsets

/-- The chunk offsets after `n` calls. -/
def offsetsAfter (n : Nat) (w : FaststartWriter) (ts : List Track) : List (Option (List Nat)) :=
  match FaststartWriter.appendTimes n w ts with
  | .ok (w, _) => offsetsOf w
  | .error _ => []

/-- The program `good`, with the boxes appended once and twice: the second call moves every chunk by 1370 bytes too many. -/
theorem once : offsetsAfter 1 (faststartSession good).writer goodTracks = [some [1370, 1379], some [1375]] := by decide +kernel

theorem twice : offsetsAfter 2 (faststartSession good).writer goodTracks = [some [2740, 2749], some [2745]] := by decide +kernel

/-- C82 applied to `good`, three calls. -/
theorem good_thrice : ∃ s w moov tooFar, FaststartWriter.session ⟨[], 0⟩ ftyp 1000 3000 1 good = .ok s ∧
    FaststartWriter.finishTimes 3 s = .ok w ∧
    w.os.data = Tree.encodeList (Spec.faststartFile ftyp [1, 2, 3, 4, 5, 10, 11, 12, 13, 6] moov) ∧ 64 ≤ tooFar ∧
    (Spec.traks moov).map Spec.trakOffsets =
      [some ([0, 9].map (· + (24 + moov.total + 8) + tooFar)), some ([5].map (· + (24 + moov.total + 8) + tooFar))] := by
  obtain ⟨s, es, h1, h2, h3⟩ := C82_faststart ⟨[], 0⟩ rfl ftyp 1000 3000 1 good (by decide) 2
  have he := good_unique es h2
  subst he
  have hs : s = faststartSession good := by unfold faststartSession; rw [h1]
  obtain ⟨w, moov, tooFar, k1, k2, k3, -, k5⟩ := h3
    (by rw [hs]; exact Nat.lt_of_le_of_lt (m := 10000) (by decide +kernel) (by decide))
  refine ⟨s, w, moov, tooFar, h1, k1, k2, ?_, ?_⟩
  · exact Nat.le_trans (by decide +kernel) k5
  rw [k3, hs]
  have : (faststartSession good).tracks.map (fun t => t.finalize.chunk_infos.map (·.offset.toNat)) = [[0, 9], [5]] := by decide +kernel
  have e : ∀ l : List Track, ∀ n, l.map (fun t => some (t.finalize.chunk_infos.map fun c => c.offset.toNat + n + tooFar)) =
      (l.map (fun t => t.finalize.chunk_infos.map (·.offset.toNat))).map fun x => some (x.map (· + n + tooFar)) := by
    intro l n; simp
  rw [e, this]
  rfl

/-- `C82_faststart_replaces`: two tracks, then none of them but one. -/
example : (match FaststartWriter.appendTrakAndUdtaBoxInfo (faststartSession good).writer (goodTracks.take 1) with
    | .ok (w, _) => (match FaststartWriter.appendTrakAndUdtaBoxInfo w goodTracks with
      | .ok (w, ts) => (offsetsOf w).length == 2 && ts.length == 2
      | .error _ => false)
    | .error _ => false) = true := by decide +kernel

/-- C82 for `SimpleWriter`: three calls, six tracks. -/
example : ∃ s, SimpleWriter.session ⟨[], 0⟩ ftyp 1000 3000 1 good = .ok s ∧
    (SimpleWriter.appendTimes 3 s.writer s.tracks).1.moov.leafs.length = 1 + 3 * (s.tracks.length + 1) := by
  obtain ⟨s, h1, m, traks, u, -, h3, -, h5⟩ := C82_simple ⟨[], 0⟩ rfl ftyp 1000 3000 1 good (by decide) 3
  refine ⟨s, h1, ?_⟩
  rw [h5]
  simp [List.replicate_succ, h3]
  omega

end Mp4.Example
