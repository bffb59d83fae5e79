import Verif.Props.Writer

/-! # Concrete programs for C38-C44 -/

namespace Mp4

namespace Spec

/-- The track a call adds data to. -/
def dataOn : Call → Option Nat
  | .addData i _ _ _ => some i
  | _ => none

/-- The track whose chunk a call terminates. -/
def endsOn : Call → Option Nat
  | .terminateCurrentChunk i => some i
  | _ => none

/-- A check for `DisciplinedCalls` by indices. -/
def checkCalls (calls : List Call) : Bool :=
  let n := calls.length
  (List.range n).all fun p => (List.range n).all fun q => (List.range n).all fun r =>
    !(decide (p < q) && decide (q < r)) ||
    match (calls[p]?).bind dataOn, (calls[q]?).bind dataOn, (calls[r]?).bind dataOn with
    | some i, some j, some k =>
      decide (i ≠ k) || decide (i = j) ||
        (List.range n).any fun m => decide (p < m) && decide (m < r) && decide ((calls[m]?).bind endsOn = some i)
    | _, _, _ => true

theorem checkCalls_sound (calls : List Call) (h : checkCalls calls = true) : DisciplinedCalls calls := by
  intro i a ts d k b ts' d' k' c hc hterm j ts'' e k'' hj
  obtain ⟨q, hq, hqe⟩ := List.mem_iff_getElem.mp hj
  have hlen : calls.length = a.length + (1 + (b.length + (1 + c.length))) := by rw [hc]; simp; omega
  have hp : calls[a.length]? = some (.addData i ts d k) := by rw [hc]; simp
  have hmid : ∀ m, m < b.length → calls[a.length + 1 + m]? = b[m]? := by
    intro m hm
    rw [hc, List.getElem?_append_right (by omega), show a.length + 1 + m - a.length = m + 1 by omega, List.getElem?_cons_succ,
      List.getElem?_append_left hm]
  have hqq : calls[a.length + 1 + q]? = some (.addData j ts'' e k'') := by
    rw [hmid q hq, List.getElem?_eq_getElem hq, hqe]
  have hr : calls[a.length + 1 + b.length]? = some (.addData i ts' d' k') := by
    rw [hc, List.getElem?_append_right (by omega), show a.length + 1 + b.length - a.length = b.length + 1 by omega,
      List.getElem?_cons_succ, List.getElem?_append_right (Nat.le_refl _)]
    simp
  unfold checkCalls at h
  have h1 := List.all_eq_true.mp h a.length (List.mem_range.mpr (by omega))
  have h2 := List.all_eq_true.mp h1 (a.length + 1 + q) (List.mem_range.mpr (by omega))
  have h3 := List.all_eq_true.mp h2 (a.length + 1 + b.length) (List.mem_range.mpr (by omega))
  rw [hp, hqq, hr] at h3
  have d1 : decide (a.length < a.length + 1 + q) = true := by simp; omega
  have d2 : decide (a.length + 1 + q < a.length + 1 + b.length) = true := by simp; omega
  rw [d1, d2] at h3
  simp only [Bool.and_true, Bool.not_true, Bool.false_or, Option.bind_some, dataOn, Bool.or_eq_true, decide_eq_true_eq, ne_eq,
    not_true_eq_false, false_or] at h3
  rcases h3 with h3 | h3
  · exact h3.symm
  · exfalso
    obtain ⟨m, -, hm⟩ := List.any_eq_true.mp h3
    simp only [Bool.and_eq_true, decide_eq_true_eq] at hm
    obtain ⟨⟨hm1, hm2⟩, hm3⟩ := hm
    apply hterm
    have hb := hmid (m - (a.length + 1)) (by omega)
    rw [show a.length + 1 + (m - (a.length + 1)) = m by omega] at hb
    rw [hb] at hm3
    cases hx : b[m - (a.length + 1)]? with
    | none => rw [hx] at hm3; simp at hm3
    | some x =>
      rw [hx] at hm3
      simp only [Option.bind_some] at hm3
      have : x = .terminateCurrentChunk i := by
        cases x <;> simp [endsOn] at hm3
        rw [hm3]
      rw [← this]
      exact List.mem_of_getElem? hx

end Spec

namespace Example

def ftyp : Ftyp := ⟨⟨0x69, 0x73, 0x6f, 0x6d⟩, 512, [⟨0x69, 0x73, 0x6f, 0x6d⟩, ⟨0x6d, 0x70, 0x34, 0x31⟩]⟩

/-- A video and an audio track. -/
def tracks : List Call :=
  [.getAndUpdateNextTrackID, .newTrack ⟨1000, 3000, 3000, 1, 0, 1⟩ (.vpx true 640 480 1000 1000),
   .getAndUpdateNextTrackID, .newTrack ⟨48000, 144000, 3000, 1, 0, 2⟩ (.opus 312 (-80))]

/-- Two chunks of the video track around one chunk of the audio track. -/
def good : List Call := tracks ++
  [.addData 0 0 [1, 2, 3] true, .addData 0 33 [4, 5] false, .terminateCurrentChunk 0,
   .addData 1 0 [10, 11, 12, 13] false, .terminateCurrentChunk 1, .addData 0 66 [6] false]

/-- The same without terminating the first chunk. -/
def bad : List Call := tracks ++
  [.addData 0 0 [1, 2, 3] true, .addData 0 33 [4, 5] false,
   .addData 1 0 [10, 11, 12, 13] false, .terminateCurrentChunk 1, .addData 0 66 [6] false]

theorem good_disciplined : Spec.DisciplinedCalls good := Spec.checkCalls_sound _ (by decide +kernel)

/-- What `good` stores. -/
def events : List Event :=
  [.sample 0 ⟨0, [1, 2, 3], true⟩, .sample 0 ⟨33, [4, 5], false⟩, .terminate 0, .sample 1 ⟨0, [10, 11, 12, 13], false⟩, .terminate 1,
   .sample 0 ⟨66, [6], false⟩]

theorem good_expands : Spec.Expands [] good events := by
  have h0 : ∀ cs c cs', Spec.Block cs c [] → Spec.Expands (Spec.after cs c) cs' events → Spec.Expands cs (c :: cs') events :=
    fun cs c cs' h1 h2 => ⟨[], _, h1, rfl, h2⟩
  refine h0 _ _ _ rfl (h0 _ _ _ rfl (h0 _ _ _ rfl (h0 _ _ _ rfl ?_)))
  exact ⟨[.sample 0 ⟨0, [1, 2, 3], true⟩], _, ⟨[[1, 2, 3]], rfl, rfl⟩, rfl,
    [.sample 0 ⟨33, [4, 5], false⟩], _, ⟨[[4, 5]], rfl, rfl⟩, rfl,
    [.terminate 0], _, rfl, rfl,
    [.sample 1 ⟨0, [10, 11, 12, 13], false⟩], _, ⟨[[10, 11, 12, 13]], rfl, rfl⟩, rfl,
    [.terminate 1], _, rfl, rfl,
    [.sample 0 ⟨66, [6], false⟩], _, ⟨[[6]], rfl, rfl⟩, rfl, rfl⟩

/-- The state after the calls. -/
def simpleSession (calls : List Call) : Session SimpleWriter :=
  match SimpleWriter.session ⟨[], 0⟩ ftyp 1000 3000 1 calls with
  | .error _ => ⟨[], SimpleWriter.new ⟨[], 0⟩ ftyp 1000 3000 1⟩
  | .ok s => s

/-- What `bad` stores. -/
def badEvents : List Event :=
  [.sample 0 ⟨0, [1, 2, 3], true⟩, .sample 0 ⟨33, [4, 5], false⟩, .sample 1 ⟨0, [10, 11, 12, 13], false⟩, .terminate 1,
   .sample 0 ⟨66, [6], false⟩]

theorem step_unique {cs : List Codec} {c : Call} {cs' : List Call} {es blk : List Event} {rest : List Event}
    (h : Spec.Expands cs (c :: cs') es) (h1 : ∀ b, Spec.Block cs c b → b = blk)
    (h2 : ∀ r, Spec.Expands (Spec.after cs c) cs' r → r = rest) : es = blk ++ rest := by
  obtain ⟨b, r, k1, rfl, k2⟩ := h
  rw [h1 b k1, h2 r k2]

theorem data_unique {cs : List Codec} {i : Nat} {ts : BitVec 64} {d : List Byte} {k : Bool}
    (hs : ∀ ss, Spec.Stores cs[i]? d ss → ss = [d]) (b : List Event) (h : Spec.Block cs (.addData i ts d k) b) :
    b = [.sample i ⟨ts, d, k⟩] := by
  obtain ⟨ss, k1, rfl⟩ := h
  rw [hs ss k1]; rfl

theorem good_unique (es : List Event) (h : Spec.Expands [] good es) : es = events := by
  refine step_unique (blk := []) h (fun _ h => h) fun _ h => step_unique (blk := []) h (fun _ h => h) fun _ h =>
    step_unique (blk := []) h (fun _ h => h) fun _ h => step_unique (blk := []) h (fun _ h => h) fun _ h =>
    step_unique h (data_unique fun _ h => h) fun _ h => step_unique h (data_unique fun _ h => h) fun _ h =>
    step_unique h (fun _ h => h) fun _ h => step_unique h (data_unique fun _ h => h) fun _ h => step_unique h (fun _ h => h) fun _ h =>
    step_unique h (data_unique fun _ h => h) fun _ h => h

theorem bad_unique (es : List Event) (h : Spec.Expands [] bad es) : es = badEvents := by
  refine step_unique (blk := []) h (fun _ h => h) fun _ h => step_unique (blk := []) h (fun _ h => h) fun _ h =>
    step_unique (blk := []) h (fun _ h => h) fun _ h => step_unique (blk := []) h (fun _ h => h) fun _ h =>
    step_unique h (data_unique fun _ h => h) fun _ h => step_unique h (data_unique fun _ h => h) fun _ h =>
    step_unique h (data_unique fun _ h => h) fun _ h => step_unique h (fun _ h => h) fun _ h =>
    step_unique h (data_unique fun _ h => h) fun _ h => h

theorem samplesOf_events : Spec.samplesOf 0 events = [⟨0, [1, 2, 3], true⟩, ⟨33, [4, 5], false⟩, ⟨66, [6], false⟩] ∧
    Spec.samplesOf 1 events = [⟨0, [10, 11, 12, 13], false⟩] ∧ ∀ i, Spec.samplesOf (i + 2) events = [] :=
  ⟨rfl, rfl, fun i => by simp [events, Spec.samplesOf, Spec.callsOf, Spec.samples]⟩

theorem events_count (i : Nat) : (Spec.samplesOf i events).length ≤ 4 := by
  obtain ⟨h0, h1, h2⟩ := samplesOf_events
  match i with
  | 0 => rw [h0]; decide
  | 1 => rw [h1]; decide
  | i + 2 => rw [h2]; decide

theorem events_size (i : Nat) : ∀ x ∈ Spec.samplesOf i events, x.data.length ≤ 4 := by
  obtain ⟨h0, h1, h2⟩ := samplesOf_events
  match i with
  | 0 => rw [h0]; decide
  | 1 => rw [h1]; decide
  | i + 2 => rw [h2]; simp

/-- C38 applied to `good`: all its hypotheses hold. -/
theorem good_found : ∃ s w moov, SimpleWriter.session ⟨[], 0⟩ ftyp 1000 3000 1 good = .ok s ∧ SimpleWriter.finish s = .ok w ∧
    w.os.data = Tree.encodeList (Spec.simpleFile ftyp [1, 2, 3, 4, 5, 10, 11, 12, 13, 6] moov) ∧
    (Spec.traks moov).map (Spec.trakSamples w.os.data) = [some [[1, 2, 3], [4, 5], [6]], some [[10, 11, 12, 13]]] := by
  obtain ⟨s, es, h1, h2, h3⟩ := C38_samples_found ⟨[], 0⟩ rfl ftyp 1000 3000 1 good good_disciplined (by decide)
  have he := good_unique es h2
  subst he
  have hs : s = simpleSession good := by unfold simpleSession; rw [h1]
  obtain ⟨w, moov, k1, k2, k3⟩ := h3
    (by rw [hs, show Tree.totalList (Spec.simpleFile ftyp (Spec.mdat events) (SimpleWriter.moovOf (simpleSession good))) = 1388 by
          decide +kernel]; decide)
    (fun i => by have := events_count i; omega) (fun i x hx => by have := events_size i x hx; omega)
  exact ⟨s, w, moov, h1, k1, k2, k3⟩

end Example

/-- **C38** The rule for callers is needed: without it, the last sample of the first track is found in the data of the second. -/
theorem C38_needs_discipline : ¬ Spec.DisciplinedCalls Example.bad ∧
    ∃ s w moov, SimpleWriter.session ⟨[], 0⟩ Example.ftyp 1000 3000 1 Example.bad = .ok s ∧ SimpleWriter.finish s = .ok w ∧
      w.os.data = Tree.encodeList (Spec.simpleFile Example.ftyp [1, 2, 3, 4, 5, 10, 11, 12, 13, 6] moov) ∧
      (Spec.traks moov).map (Spec.trakSamples w.os.data) = [some [[1, 2, 3], [4, 5], [10]], some [[10, 11, 12, 13]]] := by
  refine ⟨?_, ?_⟩
  · intro h
    have := h 0 Example.tracks 0 [1, 2, 3] true
      [.addData 0 33 [4, 5] false, .addData 1 0 [10, 11, 12, 13] false, .terminateCurrentChunk 1] 66 [6] false [] rfl
      (by simp) 1 0 [10, 11, 12, 13] false (by simp)
    exact absurd this (by decide)
  · obtain ⟨w1, s, es, -, -, -, hses, he1, -, -, hP, hmoov⟩ := simple_any ⟨[], 0⟩ rfl Example.ftyp 1000 3000 1 Example.bad (by decide)
    have he := Example.bad_unique es he1
    subst he
    have hs : s = Example.simpleSession Example.bad := by unfold Example.simpleSession; rw [hses]
    subst hs
    obtain ⟨w, hw, hfile⟩ := SimpleWriter.finish_eq hP (by
      exact Nat.lt_of_le_of_lt (m := 2000) (by decide +kernel) (by decide))
    rw [headBoxes_simpleFile] at hfile
    refine ⟨_, w, _, hses, hw, hfile, ?_⟩
    rw [hfile]
    decide +kernel

end Mp4
