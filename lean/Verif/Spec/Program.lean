import Verif.Model.Writer
import Verif.Spec.Writer
import Verif.Spec.H264

/-! # Specification: what the calls of a program store

`Call`, `Codec`, `TrackParameters` describe the interface (calls and constructor arguments); nothing here uses the model's
algorithms.
-/

namespace Mp4.Spec

/-- NAL units that a caller may hand to an H.264 track: well-formed, the last one at least six bytes long with its start code. -/
def Units (us : List (Bool × List Byte)) : Prop :=
  us ≠ [] ∧ (∀ u ∈ us, NalOk u.2) ∧ ∀ u, us.getLast? = some u → 6 ≤ (startCode u.1).length + u.2.length

/-- `addData(data)` on a track of the given class stores the samples `ss`: one sample with the data; for H.264 one
sample per VCL unit in front of the first unit of an unsupported type.  (For an H.264 buffer that is not a stream of
such units it is only said that every sample is made from a piece of the buffer.) -/
def Stores : Option Codec → List Byte → List (List Byte) → Prop
  | none, _, ss => ss = []
  | some (.h264 ..), data, ss =>
    (∀ us, Units us → data = annexB us →
      ss = vclSamples ((us.map (·.2)).takeWhile fun n => decide (1 ≤ nalType n ∧ nalType n ≤ 8))) ∧
    ∀ s ∈ ss, ∃ nal, nal <:+: data ∧ s = beBytes 4 nal.length ++ nal
  | some _, data, ss => ss = [data]

/-- What one call stores, when tracks of the given classes exist. -/
def Block (codecs : List Codec) : Call → List Event → Prop
  | .addData i timestamp data key, es => ∃ ss, Stores codecs[i]? data ss ∧ es = ss.map fun d => Event.sample i ⟨timestamp, d, key⟩
  | .terminateCurrentChunk i, es => es = if i < codecs.length then [Event.terminate i] else []
  | _, es => es = []

/-- The classes of the tracks that exist after a call. A track with id 0 is refused. -/
def after (codecs : List Codec) : Call → List Codec
  | .newTrack p codec => if p.track_id = 0 then codecs else codecs ++ [codec]
  | _ => codecs

/-- The classes of the tracks that exist after some calls. -/
def afterAll : List Codec → List Call → List Codec
  | codecs, [] => codecs
  | codecs, c :: calls => afterAll (after codecs c) calls

/-- What a sequence of calls stores. -/
def Expands : List Codec → List Call → List Event → Prop
  | _, [], es => es = []
  | codecs, c :: calls, es => ∃ blk es', Block codecs c blk ∧ es = blk ++ es' ∧ Expands (after codecs c) calls es'

/-- The rule for callers: between two `addData` calls on a track without a `terminateCurrentChunk` on it, no other track gets data. -/
def DisciplinedCalls (calls : List Call) : Prop :=
  ∀ (i : Nat) (a : List Call) (ts : BitVec 64) (d : List Byte) (k : Bool) (b : List Call) (ts' : BitVec 64) (d' : List Byte)
    (k' : Bool) (c : List Call),
    calls = a ++ .addData i ts d k :: (b ++ .addData i ts' d' k' :: c) → .terminateCurrentChunk i ∉ b →
    ∀ (j : Nat) (ts'' : BitVec 64) (e : List Byte) (k'' : Bool), .addData j ts'' e k'' ∈ b → j = i

/-! ### The finished file -/

/-- A box without children. -/
def leaf (type : String) (data : BoxData) : Tree := .node { type := fourcc type, data } [fourcc type] []

/-- The boxes of a file by `SimpleWriter`: when the size of `mdat` fits 32 bits, an empty `free` box takes up the room a
64-bit size would need. -/
def simpleFile (ftyp : Ftyp) (samples : List Byte) (moov : Tree) : List Tree :=
  if samples.length + 8 < 2 ^ 32 then
    [leaf "ftyp" (.ftyp ftyp), leaf "free" (.opaq ⟨[]⟩), leaf "mdat" (.opaq ⟨samples⟩), moov]
  else [leaf "ftyp" (.ftyp ftyp), leaf "mdat" (.opaq ⟨samples⟩), moov]

/-- The boxes of a file by `FaststartWriter`. -/
def faststartFile (ftyp : Ftyp) (samples : List Byte) (moov : Tree) : List Tree :=
  [leaf "ftyp" (.ftyp ftyp), moov, leaf "mdat" (.opaq ⟨samples⟩)]

/-! ### The rule for calls gives the rule for what is stored -/

theorem after_length (codecs : List Codec) (c : Call) : codecs.length ≤ (after codecs c).length := by
  cases c <;> simp only [after, Nat.le_refl]
  split <;> simp

theorem Block.mem {codecs : List Codec} {c : Call} {es : List Event} (h : Block codecs c es) {j : Nat} {d : Sample}
    (hm : Event.sample j d ∈ es) : ∃ ts e k, c = .addData j ts e k ∧ j < codecs.length := by
  cases c with
  | addData i ts data k =>
    obtain ⟨ss, hs, rfl⟩ := h
    obtain ⟨x, hx, he⟩ := List.mem_map.mp hm
    cases he
    refine ⟨ts, data, k, rfl, ?_⟩
    cases hc : codecs[j]? with
    | none => rw [hc] at hs; rw [show ss = [] from hs] at hx; simp at hx
    | some c => exact (List.getElem?_eq_some_iff.mp hc).1
  | terminateCurrentChunk i =>
    rw [show es = _ from h] at hm
    split at hm <;> simp at hm
  | getAndUpdateNextTrackID => rw [show es = [] from h] at hm; simp at hm
  | newTrack p c => rw [show es = [] from h] at hm; simp at hm
  | setMediaTime i m => rw [show es = [] from h] at hm; simp at hm

theorem Expands.mem {calls : List Call} : ∀ {codecs : List Codec} {es : List Event}, Expands codecs calls es →
    ∀ {j : Nat} {d : Sample}, Event.sample j d ∈ es → ∃ ts e k, .addData j ts e k ∈ calls := by
  induction calls with
  | nil => intro codecs es h j d hm; rw [show es = [] from h] at hm; simp at hm
  | cons c calls ih =>
    intro codecs es h j d hm
    obtain ⟨blk, es', h1, rfl, h2⟩ := h
    rcases List.mem_append.mp hm with hm | hm
    · obtain ⟨ts, e, k, rfl, -⟩ := h1.mem hm
      exact ⟨ts, e, k, by simp⟩
    · obtain ⟨ts, e, k, hk⟩ := ih h2 hm
      exact ⟨ts, e, k, List.mem_cons_of_mem _ hk⟩

theorem Expands.terminate {calls : List Call} : ∀ {codecs : List Codec} {es : List Event}, Expands codecs calls es →
    ∀ {i : Nat}, i < codecs.length → .terminateCurrentChunk i ∈ calls → Event.terminate i ∈ es := by
  induction calls with
  | nil => intro codecs es h i hi hm; simp at hm
  | cons c calls ih =>
    intro codecs es h i hi hm
    obtain ⟨blk, es', h1, rfl, h2⟩ := h
    rcases List.mem_cons.mp hm with rfl | hm
    · rw [show blk = _ from h1, if_pos hi]; simp
    · exact List.mem_append_right _ (ih h2 (Nat.lt_of_lt_of_le hi (after_length _ _)) hm)

theorem Expands.split {calls : List Call} : ∀ {codecs : List Codec} {a : List Event} {x : Event} {r : List Event},
    Expands codecs calls (a ++ x :: r) → ∃ pre c post codecs' a' b1 b2 r', calls = pre ++ c :: post ∧
      Expands codecs pre a' ∧ a = a' ++ b1 ∧ Block codecs' c (b1 ++ x :: b2) ∧ r = b2 ++ r' ∧ Expands (after codecs' c) post r' := by
  induction calls with
  | nil => intro codecs a x r h; exact absurd h (by simp [Expands])
  | cons c calls ih =>
    intro codecs a x r h
    obtain ⟨blk, es', h1, he, h2⟩ := h
    rcases List.append_eq_append_iff.mp he with ⟨l, hl1, hl2⟩ | ⟨l, hl1, hl2⟩
    · -- the element lies in this block
      cases l with
      | nil =>
        rw [List.nil_append] at hl2
        rw [← hl2] at h2
        obtain ⟨pre, c', post, codecs', a', b1, b2, r', k1, k2, k3, k4, k5, k6⟩ := ih (a := []) h2
        have ha' : a' = [] := by cases a' with
          | nil => rfl
          | cons _ _ => simp at k3
        subst ha'
        refine ⟨c :: pre, c', post, codecs', a, b1, b2, r', by rw [k1]; rfl, ⟨blk, [], h1, ?_, k2⟩, ?_, k4, k5, k6⟩
        · rw [hl1]; simp
        · rw [show b1 = [] by simpa using k3.symm]; simp
      | cons y l =>
        simp only [List.cons_append, List.cons.injEq] at hl2
        obtain ⟨rfl, rfl⟩ := hl2
        exact ⟨[], c, calls, codecs, [], a, l, es', rfl, rfl, rfl, by rw [← hl1]; exact h1, rfl, h2⟩
    · rw [hl2] at h2
      obtain ⟨pre, c', post, codecs', a', b1, b2, r', k1, k2, k3, k4, k5, k6⟩ := ih h2
      exact ⟨c :: pre, c', post, codecs', blk ++ a', b1, b2, r', by rw [k1]; rfl, ⟨blk, a', h1, rfl, k2⟩,
        by rw [hl1, k3, List.append_assoc], k4, k5, k6⟩

theorem DisciplinedCalls.events {calls : List Call} {codecs : List Codec} {es : List Event} (h : DisciplinedCalls calls)
    (he : Expands codecs calls es) : Disciplined es := by
  intro i a s b s' c hes hterm j d hd hj
  exfalso
  subst hes
  obtain ⟨pre, c1, post, cs1, a', p1, p2, r', k1, k2, k3, k4, k5, k6⟩ := he.split
  obtain ⟨ts, e, k, rfl, hi⟩ := k4.mem (j := i) (d := s) (by simp)
  have hblock : ∀ {x : Event}, x ∈ p2 → ∃ d, x = .sample i d := by
    intro x hx
    obtain ⟨ss, -, hss⟩ := k4
    have : x ∈ ss.map fun d => Event.sample i ⟨ts, d, k⟩ := by rw [← hss]; simp [hx]
    obtain ⟨y, -, rfl⟩ := List.mem_map.mp this
    exact ⟨_, rfl⟩
  rcases List.append_eq_append_iff.mp k5 with ⟨l, hl1, hl2⟩ | ⟨l, hl1, hl2⟩
  · -- `b` ends inside the block
    rw [hl1] at hblock
    obtain ⟨d', hd'⟩ := hblock (List.mem_append_left _ hd)
    cases hd'
    exact hj rfl
  · rw [hl2] at k6
    obtain ⟨pre2, c2, post2, cs2, a2, q1, q2, r2, m1, m2, m3, m4, m5, m6⟩ := k6.split
    obtain ⟨ts2, e2, k2', rfl, hi2⟩ := m4.mem (j := i) (d := s') (by simp)
    have hb : b = p2 ++ (a2 ++ q1) := by rw [hl1, m3]
    have hnt : .terminateCurrentChunk i ∉ pre2 := by
      intro hmem
      apply hterm
      rw [hb]
      exact List.mem_append_right _ (List.mem_append_left _ (m2.terminate (Nat.lt_of_lt_of_le hi (after_length _ _)) hmem))
    have hrule := h i pre ts e k pre2 ts2 e2 k2' post2 (by rw [k1, m1]) hnt
    rw [hb] at hd
    rcases List.mem_append.mp hd with hd | hd
    · obtain ⟨d', hd'⟩ := hblock hd
      cases hd'
      exact hj rfl
    · rcases List.mem_append.mp hd with hd | hd
      · obtain ⟨ts3, e3, k3', hmem⟩ := m2.mem hd
        exact hj (hrule j ts3 e3 k3' hmem)
      · obtain ⟨ts3, e3, k3', heq, -⟩ := m4.mem (j := j) (d := d) (List.mem_append_left _ hd)
        cases heq
        exact hj rfl

end Mp4.Spec
