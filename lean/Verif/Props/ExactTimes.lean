import Verif.Props.ReadMovie
import Verif.Props.ReadMovieExamples

/-! # C97: which times come back exactly -/

namespace Mp4
open Spec

namespace Spec

/-- The times of a track fit into the 32-bit fields of its boxes; the media time is signed. -/
def TimesFit (a : TrackAsked) : Prop :=
  a.params.time_from_epoch.toNat < 2 ^ 32 ∧ a.params.durationInTimescale.toNat < 2 ^ 32 ∧ a.params.durationInMvhdTimescale.toNat < 2 ^ 32 ∧
    -2 ^ 31 ≤ a.mediaTime.toInt ∧ a.mediaTime.toInt < 2 ^ 31

end Spec

theorem inFile_time (v : BitVec 64) : inFile.time v = v ↔ v.toNat < 2 ^ 32 := by
  show BitVec.ofNat 64 (v.toNat % 2 ^ 32) = v ↔ _
  constructor
  · intro h
    have := congrArg BitVec.toNat h
    rw [BitVec.toNat_ofNat] at this
    omega
  · intro h
    apply BitVec.eq_of_toNat_eq
    rw [BitVec.toNat_ofNat]
    omega

theorem inFile_stime (v : BitVec 64) : inFile.stime v = v ↔ -2 ^ 31 ≤ v.toInt ∧ v.toInt < 2 ^ 31 := by
  show BitVec.ofInt 64 ((v.toNat % 2 ^ 31 : Nat) - (if v.msb then (2 ^ 31 : Int) else 0)) = v ↔ _
  have hlt : v.toNat < 2 ^ 64 := v.isLt
  have hi := BitVec.toInt_eq_msb_cond v
  have hm := BitVec.msb_eq_decide v
  cases hb : v.msb with
  | false =>
    rw [hb] at hi hm
    simp only [Bool.false_eq_true, if_false, Int.sub_zero] at hi ⊢
    have hm : ¬ 2 ^ (64 - 1) ≤ v.toNat := by simpa using hm.symm
    constructor
    · intro h
      have := congrArg BitVec.toInt h
      rw [BitVec.toInt_ofInt, hi, Int.bmod_def] at this
      split at this <;> omega
    · intro h
      apply BitVec.eq_of_toInt_eq
      rw [BitVec.toInt_ofInt, hi, Int.bmod_def]
      split <;> omega
  | true =>
    rw [hb] at hi hm
    simp only [if_true] at hi ⊢
    have hm : 2 ^ (64 - 1) ≤ v.toNat := by simpa using hm.symm
    constructor
    · intro h
      have := congrArg BitVec.toInt h
      rw [BitVec.toInt_ofInt, hi, Int.bmod_def] at this
      split at this <;> omega
    · intro h
      apply BitVec.eq_of_toInt_eq
      rw [BitVec.toInt_ofInt, hi, Int.bmod_def]
      split <;> omega

/-- **C97 (tracks).** What the file says about a track says what was asked, to the last bit, if and only if the times fit into 32 bits. -/
theorem C97_track (a : TrackAsked) (n : Nat) (trak : Tree) (h : Parameters inFile a n trak) :
    Parameters inObjects a n trak ↔ TimesFit a := by
  constructor
  · intro h'
    obtain ⟨b1, d1, -, -, t1, -, t2, -⟩ := h.tkhd
    obtain ⟨b1', d1', -, -, t1', -, t2', -⟩ := h'.tkhd
    rw [d1] at d1'
    cases d1'
    obtain ⟨b2, d2, -, e2⟩ := h.elst
    obtain ⟨b2', d2', -, e2'⟩ := h'.elst
    rw [d2] at d2'
    cases d2'
    obtain ⟨b3, d3, -, -, t3, -⟩ := h.mdhd
    obtain ⟨b3', d3', -, -, t3', -⟩ := h'.mdhd
    rw [d3] at d3'
    cases d3'
    rw [e2] at e2'
    simp only [List.cons.injEq, ElstEntry.mk.injEq, and_true] at e2'
    exact ⟨(inFile_time _).1 (t1.symm.trans t1'), (inFile_time _).1 (t3.symm.trans t3'), (inFile_time _).1 (t2.symm.trans t2'),
      (inFile_stime _).1 e2'.2⟩
  · rintro ⟨h1, h2, h3, h4⟩
    have e1 := (inFile_time _).2 h1
    have e2 := (inFile_time _).2 h2
    have e3 := (inFile_time _).2 h3
    have e4 := (inFile_stime _).2 h4
    have k1 := h.tkhd
    have k2 := h.elst
    have k3 := h.mdhd
    rw [e1, e3] at k1
    rw [e3, e4] at k2
    rw [e1, e2] at k3
    exact ⟨k1, k2, k3, h.hdlr, h.header, h.dref, h.stsd, h.roll, h.noRoll⟩

/-- **C97 (the movie header).** -/
theorem C97_movie (ts : BitVec 32) (dur now : BitVec 64) (moov : Tree) (h : Movie inFile ts dur now moov) :
    Movie inObjects ts dur now moov ↔ dur.toNat < 2 ^ 32 ∧ now.toNat < 2 ^ 32 := by
  constructor
  · intro h'
    obtain ⟨b, d, -, -, t1, t2, -⟩ := h.mvhd
    obtain ⟨b', d', -, -, t1', t2', -⟩ := h'.mvhd
    rw [d] at d'
    cases d'
    exact ⟨(inFile_time _).1 (t1.symm.trans t1'), (inFile_time _).1 (t2.symm.trans t2')⟩
  · rintro ⟨h1, h2⟩
    have k := h.mvhd
    rw [(inFile_time _).2 h1, (inFile_time _).2 h2] at k
    exact ⟨k, h.meta_, h.tool⟩

theorem eachTrak_exact (calls : List Call) (es : List Event) (moov : Tree)
    (h : EachTrak (fun a ss trak => Parameters inFile a ss.length trak) calls es moov) :
    EachTrak (fun a ss trak => Parameters inObjects a ss.length trak) calls es moov ↔ ∀ a ∈ asked calls, TimesFit a := by
  constructor
  · intro h' a ha
    obtain ⟨i, hi, rfl⟩ := List.mem_iff_getElem.1 ha
    have hi' : i < (traks moov).length := by rw [h.1]; exact hi
    have e1 := List.getElem?_eq_getElem hi
    have e2 := List.getElem?_eq_getElem hi'
    exact (C97_track _ _ _ (h.2 i _ _ e1 e2)).1 (h'.2 i _ _ e1 e2)
  · intro ht
    exact ⟨h.1, fun i a trak e1 e2 => (C97_track _ _ _ (h.2 i a trak e1 e2)).2 (ht a (List.mem_of_getElem? e1))⟩

/-- **C97 (`SimpleWriter`).** -/
theorem C97_simple (os : OStream) (hos : os.data = []) (f : Ftyp) (ts : BitVec 32) (dur now : BitVec 64) (calls : List Call)
    (hf : f.compatible_brands.length < 2 ^ 32) :
    ∃ s es, SimpleWriter.session os f ts dur now calls = .ok s ∧ Spec.Expands [] calls es ∧
      (Tree.totalList (Spec.simpleFile f (Spec.mdat es) (SimpleWriter.moovOf s)) < 2 ^ 63 →
       (∀ i, (Spec.samplesOf i es).length < 2 ^ 32 - 1) → (∀ i, ∀ x ∈ Spec.samplesOf i es, x.data.length < 2 ^ 32) →
       (∀ a ∈ Spec.asked calls, Spec.CodecFits a) →
       ∃ w, SimpleWriter.finish s = .ok w ∧ ∀ (file : Bool) (env : Nat → Env), ∃ moov,
        Spec.ReadsMovie { file, env, data := w.os.data } (Spec.simpleTypes (Spec.mdat es)) f (Spec.mdat es) moov ∧
        (Spec.Movie Spec.inObjects ts dur now moov ↔ dur.toNat < 2 ^ 32 ∧ now.toNat < 2 ^ 32) ∧
        (Spec.EachTrak (fun a ss trak => Spec.Parameters Spec.inObjects a ss.length trak) calls es moov ↔
          ∀ a ∈ Spec.asked calls, Spec.TimesFit a)) := by
  obtain ⟨s, es, h1, h2, h3⟩ := C60_simple os hos f ts dur now calls hf
  refine ⟨s, es, h1, h2, fun a1 a2 a3 hc => ?_⟩
  obtain ⟨w, k1, k2⟩ := h3 a1 a2 a3 hc
  refine ⟨w, k1, fun file env => ?_⟩
  obtain ⟨moov, m1, m2, -, -, m3, -⟩ := k2 file env
  exact ⟨moov, m1, C97_movie _ _ _ _ m2, eachTrak_exact _ _ _ m3⟩

/-- **C97 (`FaststartWriter`).** -/
theorem C97_faststart (os : OStream) (hos : os.data = []) (f : Ftyp) (ts : BitVec 32) (dur now : BitVec 64) (calls : List Call)
    (hf : f.compatible_brands.length < 2 ^ 32) :
    ∃ s es, FaststartWriter.session os f ts dur now calls = .ok s ∧ Spec.Expands [] calls es ∧
      (FaststartWriter.sizeBound s f (Spec.mdat es) < 2 ^ 63 →
       (∀ i, (Spec.samplesOf i es).length < 2 ^ 32 - 1) → (∀ i, ∀ x ∈ Spec.samplesOf i es, x.data.length < 2 ^ 32) →
       (∀ a ∈ Spec.asked calls, Spec.CodecFits a) →
       ∃ w, FaststartWriter.finish s = .ok w ∧ ∀ (file : Bool) (env : Nat → Env), ∃ moov,
        Spec.ReadsMovie { file, env, data := w.os.data } ["ftyp", "moov", "mdat"] f (Spec.mdat es) moov ∧
        (Spec.Movie Spec.inObjects ts dur now moov ↔ dur.toNat < 2 ^ 32 ∧ now.toNat < 2 ^ 32) ∧
        (Spec.EachTrak (fun a ss trak => Spec.Parameters Spec.inObjects a ss.length trak) calls es moov ↔
          ∀ a ∈ Spec.asked calls, Spec.TimesFit a)) := by
  obtain ⟨s, es, h1, h2, h3⟩ := C60_faststart os hos f ts dur now calls hf
  refine ⟨s, es, h1, h2, fun a1 a2 a3 hc => ?_⟩
  obtain ⟨w, k1, k2⟩ := h3 a1 a2 a3 hc
  refine ⟨w, k1, fun file env => ?_⟩
  obtain ⟨moov, m1, m2, -, -, m3, -⟩ := k2 file env
  exact ⟨moov, m1, C97_movie _ _ _ _ m2, eachTrak_exact _ _ _ m3⟩

/-! ### Concrete programs -/

namespace Example

/-- All times of the program `good` come back. -/
example (env : Nat → Env) : ∃ s es w moov, SimpleWriter.session ⟨[], 0⟩ ftyp 1000 3000 1 good = .ok s ∧ SimpleWriter.finish s = .ok w ∧
    Spec.ReadsMovie { file := true, env, data := w.os.data } (Spec.simpleTypes (Spec.mdat es)) ftyp (Spec.mdat es) moov ∧
    Spec.Movie Spec.inObjects 1000 3000 1 moov ∧
    Spec.EachTrak (fun a ss trak => Spec.Parameters Spec.inObjects a ss.length trak) good es moov := by
  obtain ⟨s, es, h1, h2, h3⟩ := C97_simple ⟨[], 0⟩ rfl ftyp 1000 3000 1 good (by decide)
  have he := good_unique es h2
  subst he
  have hs : s = simpleSession good := by unfold simpleSession; rw [h1]
  obtain ⟨w, k1, k2⟩ := h3 (by rw [hs]; exact Nat.lt_of_le_of_lt (m := 2000) (by decide +kernel) (by decide))
    (fun i => by have := events_count i; omega) (fun i x hx => by have := events_size i x hx; omega) good_fits
  obtain ⟨moov, m1, m2, m3⟩ := k2 true env
  refine ⟨s, _, w, moov, h1, k1, m1, m2.2 ⟨by decide, by decide⟩, m3.2 ?_⟩
  rw [good_asked]
  intro a ha
  simp only [List.mem_cons, List.not_mem_nil, or_false] at ha
  rcases ha with rfl | rfl <;> exact ⟨by decide, by decide, by decide, by decide, by decide⟩

/-- The same file with a movie that lasts 2^32 units does not say so. -/
example (moov : Tree) (h : Spec.Movie Spec.inFile 1000 (2 ^ 32) 1 moov) : ¬ Spec.Movie Spec.inObjects 1000 (2 ^ 32) 1 moov :=
  fun h' => absurd ((C97_movie _ _ _ _ h).1 h').1 (by decide)

end Example

end Mp4
