import Verif.Props.ReadMovie
import Verif.Props.ReadMovieExamples

/-! # C98: the times a player computes from the file -/

namespace Mp4
open Spec

namespace Spec

/-- The decoding times that follow from the durations of the samples: every sample begins where the one before it ends; the last number is the end of
the last sample (ISO/IEC 14496-12, 8.6.1.2). -/
def decodeTimes (start : Nat) : List (BitVec 32) → List Nat
  | [] => [start]
  | d :: ds => start :: decodeTimes (start + d.toNat) ds

/-- No time is before the one in front of it, nor 2^32 or more behind it. -/
def TimesInOrder : List (BitVec 64) → Prop
  | a :: b :: l => (a.toNat ≤ b.toNat ∧ b.toNat - a.toNat < 2 ^ 32) ∧ TimesInOrder (b :: l)
  | _ => True

end Spec

theorem step_exact (a b : BitVec 64) : a.toNat + ((b - a).setWidth 32).toNat = b.toNat ↔ a.toNat ≤ b.toNat ∧ b.toNat - a.toNat < 2 ^ 32 := by
  have ha := a.isLt
  have hb := b.isLt
  rw [BitVec.toNat_setWidth, BitVec.toNat_sub]
  omega

theorem decodeTimes_head (n : Nat) (ds : List (BitVec 32)) : ∃ l, decodeTimes n ds = n :: l := by
  cases ds with
  | nil => exact ⟨_, rfl⟩
  | cons d ds => exact ⟨_, rfl⟩

/-- **C98 (durations).** The times computed from the durations are the ones of the samples, and the last sample ends at the end of the track, if and only
if the times, with the end of the track behind them, are in order with gaps below 2^32. -/
theorem C98_durations (ending : BitVec 64) (ts : List (BitVec 64)) : ∀ t : BitVec 64,
    decodeTimes t.toNat (durations ending (t :: ts)) = (t :: ts ++ [ending]).map (·.toNat) ↔ TimesInOrder (t :: ts ++ [ending]) := by
  induction ts with
  | nil =>
    intro t
    have e : durations ending [t] = [(ending - t).setWidth 32] := by rw [durations]
    rw [e]
    show [t.toNat, t.toNat + _] = [t.toNat, ending.toNat] ↔ ((_ ∧ _) ∧ True)
    rw [and_true, ← step_exact]
    simp
  | cons t' ts ih =>
    intro t
    have e : durations ending (t :: t' :: ts) = (t' - t).setWidth 32 :: durations ending (t' :: ts) := by rw [durations]
    rw [e]
    show t.toNat :: decodeTimes (t.toNat + _) _ = t.toNat :: (t' :: ts ++ [ending]).map (·.toNat) ↔ (_ ∧ _) ∧ TimesInOrder (t' :: ts ++ [ending])
    rw [← step_exact, ← ih t', List.cons.injEq, eq_self, true_and]
    constructor
    · intro h
      have hs : t.toNat + ((t' - t).setWidth 32).toNat = t'.toNat := by
        obtain ⟨l, hl⟩ := decodeTimes_head (t.toNat + ((t' - t).setWidth 32).toNat) (durations ending (t' :: ts))
        rw [hl] at h
        exact (List.cons.inj h).1
      rw [hs] at h
      exact ⟨hs, h⟩
    · rintro ⟨h1, h2⟩
      rw [h1]
      exact h2

namespace Spec

/-- The times, each moved by 2^32 for every step back in front of it (`back` of them so far). -/
def movedByStepsBack (back : Nat) : List Nat → List Nat
  | a :: b :: l => (a + back * 2 ^ 32) :: movedByStepsBack (if b < a then back + 1 else back) (b :: l)
  | [a] => [a + back * 2 ^ 32]
  | [] => []

/-- Neighbours are less than 2^32 apart, in either direction. -/
def Close : List Nat → Prop
  | a :: b :: l => (a < b + 2 ^ 32 ∧ b < a + 2 ^ 32) ∧ Close (b :: l)
  | _ => True

end Spec

theorem step_close (a b : BitVec 64) (h : a.toNat < b.toNat + 2 ^ 32 ∧ b.toNat < a.toNat + 2 ^ 32) :
    a.toNat + ((b - a).setWidth 32).toNat = b.toNat + (if b.toNat < a.toNat then 1 else 0) * 2 ^ 32 := by
  have ha := a.isLt
  have hb := b.isLt
  rw [BitVec.toNat_setWidth, BitVec.toNat_sub]
  split <;> omega

theorem decodeTimes_moved (ending : BitVec 64) (ts : List (BitVec 64)) : ∀ (t : BitVec 64) (back : Nat),
    Close ((t :: ts ++ [ending]).map (·.toNat)) →
    decodeTimes (t.toNat + back * 2 ^ 32) (durations ending (t :: ts)) = movedByStepsBack back ((t :: ts ++ [ending]).map (·.toNat)) := by
  induction ts with
  | nil =>
    intro t back h
    have e : durations ending [t] = [(ending - t).setWidth 32] := by rw [durations]
    have := step_close t ending h.1
    rw [e]
    show [t.toNat + back * 2 ^ 32, t.toNat + back * 2 ^ 32 + ((ending - t).setWidth 32).toNat] =
      [t.toNat + back * 2 ^ 32, ending.toNat + (if ending.toNat < t.toNat then back + 1 else back) * 2 ^ 32]
    rw [List.cons.injEq, List.cons.injEq]
    refine ⟨rfl, ?_, rfl⟩
    split at this <;> rename_i hc <;> simp only [hc, if_true, if_false] <;> omega
  | cons t' ts ih =>
    intro t back h
    have e : durations ending (t :: t' :: ts) = (t' - t).setWidth 32 :: durations ending (t' :: ts) := by rw [durations]
    have hs := step_close t t' h.1
    rw [e]
    show (t.toNat + back * 2 ^ 32) :: decodeTimes (t.toNat + back * 2 ^ 32 + ((t' - t).setWidth 32).toNat) (durations ending (t' :: ts)) =
      (t.toNat + back * 2 ^ 32) :: movedByStepsBack (if t'.toNat < t.toNat then back + 1 else back) ((t' :: ts ++ [ending]).map (·.toNat))
    rw [← ih t' _ h.2]
    congr 2
    split at hs <;> rename_i hc <;> simp only [hc, if_true, if_false] <;> omega

/-- **C98 (steps back).** As long as neighbouring times are less than 2^32 apart, every time comes back moved by 2^32 for each step back in front of it. -/
theorem C98_steps_back (ending t : BitVec 64) (ts : List (BitVec 64)) (h : Close ((t :: ts ++ [ending]).map (·.toNat))) :
    decodeTimes t.toNat (durations ending (t :: ts)) = movedByStepsBack 0 ((t :: ts ++ [ending]).map (·.toNat)) := by
  have := decodeTimes_moved ending ts t 0 h
  rwa [Nat.zero_mul, Nat.add_zero] at this

theorem times_of_tables (calls : List Call) (es : List Event) (moov : Tree) (h : EachTrak Tables calls es moov) :
    EachTrak (fun a ss trak => ∃ b, dataAt ["mdia", "minf", "stbl", "stts"] trak = some (.stts b) ∧
      ∀ x xs, ss = x :: xs →
        (decodeTimes x.timestamp.toNat (sttsDurations b.entries) = (ss.map (·.timestamp) ++ [a.params.durationInTimescale]).map (·.toNat) ↔
          TimesInOrder (ss.map (·.timestamp) ++ [a.params.durationInTimescale]))) calls es moov := by
  refine ⟨h.1, fun i a trak h1 h2 => ?_⟩
  obtain ⟨b, hb, -, hd⟩ := (h.2 i a trak h1 h2).stts
  refine ⟨b, hb, fun x xs hx => ?_⟩
  rw [hd, hx]
  exact C98_durations _ _ _

/-- **C98 (`SimpleWriter`).** The `stts` box of every track in the finished file, as a reader gets it, gives back the times of all samples (counted from the
first one's) and the end of the track if and only if they are in order with gaps below 2^32. -/
theorem C98_simple (os : OStream) (hos : os.data = []) (f : Ftyp) (ts : BitVec 32) (dur now : BitVec 64) (calls : List Call)
    (hf : f.compatible_brands.length < 2 ^ 32) :
    ∃ s es, SimpleWriter.session os f ts dur now calls = .ok s ∧ Spec.Expands [] calls es ∧
      (Tree.totalList (Spec.simpleFile f (Spec.mdat es) (SimpleWriter.moovOf s)) < 2 ^ 63 →
       (∀ i, (Spec.samplesOf i es).length < 2 ^ 32 - 1) → (∀ i, ∀ x ∈ Spec.samplesOf i es, x.data.length < 2 ^ 32) →
       (∀ a ∈ Spec.asked calls, Spec.CodecFits a) →
       ∃ w, SimpleWriter.finish s = .ok w ∧ ∀ (file : Bool) (env : Nat → Env), ∃ moov,
        Spec.ReadsMovie { file, env, data := w.os.data } (Spec.simpleTypes (Spec.mdat es)) f (Spec.mdat es) moov ∧
        Spec.EachTrak (fun a ss trak => ∃ b, Spec.dataAt ["mdia", "minf", "stbl", "stts"] trak = some (.stts b) ∧
          ∀ x xs, ss = x :: xs →
            (Spec.decodeTimes x.timestamp.toNat (Spec.sttsDurations b.entries) =
                (ss.map (·.timestamp) ++ [a.params.durationInTimescale]).map (·.toNat) ↔
              Spec.TimesInOrder (ss.map (·.timestamp) ++ [a.params.durationInTimescale]))) calls es moov) := by
  obtain ⟨s, es, h1, h2, h3⟩ := C60_simple os hos f ts dur now calls hf
  refine ⟨s, es, h1, h2, fun a1 a2 a3 hc => ?_⟩
  obtain ⟨w, k1, k2⟩ := h3 a1 a2 a3 hc
  refine ⟨w, k1, fun file env => ?_⟩
  obtain ⟨moov, m1, -, -, m3, -, -⟩ := k2 file env
  exact ⟨moov, m1, times_of_tables _ _ _ m3⟩

/-- **C98 (`FaststartWriter`).** -/
theorem C98_faststart (os : OStream) (hos : os.data = []) (f : Ftyp) (ts : BitVec 32) (dur now : BitVec 64) (calls : List Call)
    (hf : f.compatible_brands.length < 2 ^ 32) :
    ∃ s es, FaststartWriter.session os f ts dur now calls = .ok s ∧ Spec.Expands [] calls es ∧
      (FaststartWriter.sizeBound s f (Spec.mdat es) < 2 ^ 63 →
       (∀ i, (Spec.samplesOf i es).length < 2 ^ 32 - 1) → (∀ i, ∀ x ∈ Spec.samplesOf i es, x.data.length < 2 ^ 32) →
       (∀ a ∈ Spec.asked calls, Spec.CodecFits a) →
       ∃ w, FaststartWriter.finish s = .ok w ∧ ∀ (file : Bool) (env : Nat → Env), ∃ moov,
        Spec.ReadsMovie { file, env, data := w.os.data } ["ftyp", "moov", "mdat"] f (Spec.mdat es) moov ∧
        Spec.EachTrak (fun a ss trak => ∃ b, Spec.dataAt ["mdia", "minf", "stbl", "stts"] trak = some (.stts b) ∧
          ∀ x xs, ss = x :: xs →
            (Spec.decodeTimes x.timestamp.toNat (Spec.sttsDurations b.entries) =
                (ss.map (·.timestamp) ++ [a.params.durationInTimescale]).map (·.toNat) ↔
              Spec.TimesInOrder (ss.map (·.timestamp) ++ [a.params.durationInTimescale]))) calls es moov) := by
  obtain ⟨s, es, h1, h2, h3⟩ := C60_faststart os hos f ts dur now calls hf
  refine ⟨s, es, h1, h2, fun a1 a2 a3 hc => ?_⟩
  obtain ⟨w, k1, k2⟩ := h3 a1 a2 a3 hc
  refine ⟨w, k1, fun file env => ?_⟩
  obtain ⟨moov, m1, -, -, m3, -, -⟩ := k2 file env
  exact ⟨moov, m1, times_of_tables _ _ _ m3⟩

/-! ### Concrete times -/

namespace Example

/-- The times of the video track of `good` are in order: they come back. -/
example : Spec.TimesInOrder [0, 33, 66, 3000] ∧ Spec.decodeTimes 0 (Spec.durations 3000 [0, 33, 66]) = [0, 33, 66, 3000] := by
  refine ⟨?_, by decide +kernel⟩
  simp [Spec.TimesInOrder]

/-- A time that steps back, as a composition time of a B-frame would, moves the ones behind it by 2^32. -/
example : ¬ Spec.TimesInOrder [0, 66, 33, 3000] ∧ Spec.decodeTimes 0 (Spec.durations 3000 [0, 66, 33]) = [0, 66, 2 ^ 32 + 33, 2 ^ 32 + 3000] := by
  refine ⟨?_, by decide +kernel⟩
  simp [Spec.TimesInOrder]

/-- `C98_steps_back` is about these times. -/
example : Spec.Close ([0, 66, 33, 3000]) ∧ Spec.movedByStepsBack 0 [0, 66, 33, 3000] = [0, 66, 2 ^ 32 + 33, 2 ^ 32 + 3000] := by
  refine ⟨?_, by decide +kernel⟩
  simp [Spec.Close]

/-- So does a sample after the end of the track. -/
example : Spec.decodeTimes 0 (Spec.durations 50 [0, 33, 66]) = [0, 33, 66, 2 ^ 32 + 50] := by decide +kernel

/-- What `C98_simple` says is about `good`: its file is read, and the times are those. -/
example (env : Nat → Env) : ∃ s w moov es, SimpleWriter.session ⟨[], 0⟩ ftyp 1000 3000 1 good = .ok s ∧ SimpleWriter.finish s = .ok w ∧
    Spec.ReadsMovie { file := true, env, data := w.os.data } (Spec.simpleTypes (Spec.mdat es)) ftyp (Spec.mdat es) moov ∧
    ∀ trak, (Spec.traks moov)[0]? = some trak → ∃ b, Spec.dataAt ["mdia", "minf", "stbl", "stts"] trak = some (.stts b) ∧
      Spec.decodeTimes 0 (Spec.sttsDurations b.entries) = [0, 33, 66, 3000] := by
  obtain ⟨s, es, h1, h2, h3⟩ := C98_simple ⟨[], 0⟩ rfl ftyp 1000 3000 1 good (by decide)
  have he := good_unique es h2
  subst he
  have hs : s = simpleSession good := by unfold simpleSession; rw [h1]
  obtain ⟨w, k1, k2⟩ := h3 (by rw [hs]; exact Nat.lt_of_le_of_lt (m := 2000) (by decide +kernel) (by decide))
    (fun i => by have := events_count i; omega) (fun i x hx => by have := events_size i x hx; omega) good_fits
  obtain ⟨moov, m1, m2⟩ := k2 true env
  refine ⟨s, w, moov, _, h1, k1, m1, fun trak ht => ?_⟩
  obtain ⟨b, hb, hx⟩ := m2.2 0 video trak (by rw [good_asked]; rfl) ht
  exact ⟨b, hb, (hx _ _ rfl).2 (by
    show Spec.TimesInOrder [0, 33, 66, 3000]
    simp [Spec.TimesInOrder])⟩

end Example

end Mp4
