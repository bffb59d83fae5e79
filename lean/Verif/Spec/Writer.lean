import Verif.Spec.Track
import Verif.Spec.Tree

/-! # Specification: what a finished file must give back (ISO/IEC 14496-12 8.7)

Independent of the model of the writers.
-/

namespace Mp4

/-- What a program does with its tracks: a sample is stored in track number `track`, or its chunk is terminated. -/
inductive Event where
  | sample (track : Nat) (s : Sample)
  | terminate (track : Nat)
  deriving DecidableEq

namespace Spec

/-- All sample data in the order it was added, over all tracks. -/
def mdat : List Event → List Byte
  | [] => []
  | .sample _ s :: es => s.data ++ mdat es
  | .terminate _ :: es => mdat es

/-- The part of a history that concerns track `i`. -/
def callsOf (i : Nat) : List Event → List TrackCall
  | [] => []
  | .sample j s :: es => if j = i then .sample s :: callsOf i es else callsOf i es
  | .terminate j :: es => if j = i then .terminate :: callsOf i es else callsOf i es

/-- The samples of track `i`. -/
def samplesOf (i : Nat) (es : List Event) : List Sample := samples (callsOf i es)

/-- The rule for callers: between two samples of a track whose chunk was not terminated in between, no other track adds data. -/
def Disciplined (es : List Event) : Prop :=
  ∀ (i : Nat) (a : List Event) (s : Sample) (b : List Event) (s' : Sample) (c : List Event),
    es = a ++ .sample i s :: (b ++ .sample i s' :: c) → .terminate i ∉ b →
    ∀ (j : Nat) (d : Sample), .sample j d ∈ b → j ≠ i → d.data = []

/-! ### Reading samples back through the sample tables -/

/-- Consecutive samples of the given sizes from offset `o` on. -/
def readRun (file : List Byte) (o : Nat) : List Nat → List (List Byte)
  | [] => []
  | n :: ns => slice file o n :: readRun file (o + n) ns

/-- The samples of the chunks at the given offsets, the first of them being chunk number `k`; `sizes` are the sizes of
their samples. -/
def readChunks (file : List Byte) (stsc : List StscEntry) (k : Nat) : List Nat → List Nat → List (List Byte)
  | [], _ => []
  | o :: os, sizes =>
    readRun file o (sizes.take (samplesPerChunk stsc k)) ++
      readChunks file stsc (k + 1) os (sizes.drop (samplesPerChunk stsc k))

/-- The first child of the given type. -/
def child (type : BoxType) (t : Tree) : Option Tree := t.leafs.find? fun c => decide (c.box.type = type)

/-- `stbl` of a `trak` box. -/
def stbl (trak : Tree) : Option Tree :=
  ((child (fourcc "mdia") trak).bind (child (fourcc "minf"))).bind (child (fourcc "stbl"))

def stscEntries (stbl : Tree) : Option (List StscEntry) :=
  (child (fourcc "stsc") stbl).bind fun c => match c.box.data with
    | .stsc b => some b.entries
    | _ => none

/-- The sizes in an `stsz` box with individual sizes. -/
def stszSizes (stbl : Tree) : Option (List Nat) :=
  (child (fourcc "stsz") stbl).bind fun c => match c.box.data with
    | .stsz b => if b.sample_size = 0 then some (b.entry_sizes.map (·.toNat)) else none
    | _ => none

/-- The offsets in `stco`, or in `co64` when there is no `stco`. -/
def stblOffsets (stbl : Tree) : Option (List Nat) :=
  ((child (fourcc "stco") stbl).or (child (fourcc "co64") stbl)).bind fun c => chunkOffsets c.box.data

/-- The samples of a `trak` box, found through `stsc`, `stsz` and `stco`/`co64`. -/
def trakSamples (file : List Byte) (trak : Tree) : Option (List (List Byte)) :=
  (stbl trak).bind fun s => (stscEntries s).bind fun stsc => (stszSizes s).bind fun sizes => (stblOffsets s).bind fun offsets =>
    some (readChunks file stsc 1 offsets sizes)

/-- The `trak` boxes of a `moov` box. -/
def traks (moov : Tree) : List Tree := moov.leafs.filter fun c => decide (c.box.type = fourcc "trak")

/-- `next_track_ID` of a `moov` box. -/
def nextTrackId (moov : Tree) : Option (BitVec 32) :=
  (child (fourcc "mvhd") moov).bind fun c => match c.box.data with
    | .mvhd b => some b.next_track_id
    | _ => none

/-! ### Facts about the specification -/

theorem mdat_append (a b : List Event) : mdat (a ++ b) = mdat a ++ mdat b := by
  induction a with
  | nil => rfl
  | cons e a ih => cases e <;> simp [mdat, ih]

theorem callsOf_append (i : Nat) (a b : List Event) : callsOf i (a ++ b) = callsOf i a ++ callsOf i b := by
  induction a with
  | nil => rfl
  | cons e a ih => cases e <;> simp only [callsOf, List.cons_append, ih] <;> split <;> simp

theorem samples_append (a b : List TrackCall) : samples (a ++ b) = samples a ++ samples b := by
  induction a with
  | nil => rfl
  | cons e a ih => cases e <;> simp [samples, ih]

theorem samplesOf_append (i : Nat) (a b : List Event) : samplesOf i (a ++ b) = samplesOf i a ++ samplesOf i b := by
  rw [samplesOf, callsOf_append, samples_append]; rfl

theorem Disciplined.prefix {a b : List Event} (h : Disciplined (a ++ b)) : Disciplined a := by
  intro i x s y s' z he ht j d hd hj
  exact h i x s y s' (z ++ b) (by rw [he]; simp) ht j d hd hj

theorem readRun_append (file : List Byte) (a b : List Nat) : ∀ o, readRun file o (a ++ b) =
    readRun file o a ++ readRun file (o + a.sum) b := by
  induction a with
  | nil => intro o; rfl
  | cons n a ih => intro o; simp [readRun, ih, Nat.add_assoc]

end Spec
end Mp4
