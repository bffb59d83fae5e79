import Verif.Model.Writer

/-! # Specification for C90-C92: what remains of a tree of boxes when some boxes are not looked at, and the calls on one track -/

namespace Mp4.Spec

mutual
/-- The tree with every box that `hide` selects replaced by the same empty box; everything else stays. -/
def without (hide : BoxData → Bool) : Tree → Tree
  | .node b p ls =>
    if hide b.data then .node { type := fourcc "stco", data := .empty } [] [] else .node b p (withoutList hide ls)
def withoutList (hide : BoxData → Bool) : List Tree → List Tree
  | [] => []
  | t :: ts => without hide t :: withoutList hide ts
end

/-- Does the box hold chunk offsets (`stco`, `co64`)? -/
def holdsOffsets : BoxData → Bool
  | .stco _ => true
  | .co64 _ => true
  | _ => false

/-- The tree without the chunk offsets. -/
abbrev withoutOffsets : Tree → Tree := without holdsOffsets

/-- Does the box say which samples are in which chunk, or where chunks are (`stsc`, `stco`, `co64`)? -/
def holdsChunks : BoxData → Bool
  | .stsc _ => true
  | d => holdsOffsets d

/-- The tree without what says how samples are put into chunks. -/
abbrev withoutChunks : Tree → Tree := without holdsChunks

/-- Is it a call that ends a chunk? -/
def endsChunk : Call → Bool
  | .terminateCurrentChunk _ => true
  | _ => false

/-- The calls a program makes on its track number `i`, the constructor included, as a program with that track only.  `k` is the
number of tracks made so far; a constructor called with track id 0 throws and makes none. -/
def callsOn (i : Nat) : Nat → List Call → List Call
  | _, [] => []
  | k, .getAndUpdateNextTrackID :: cs => callsOn i k cs
  | k, .newTrack p codec :: cs =>
    if p.track_id = 0 then callsOn i k cs
    else if k = i then .newTrack p codec :: callsOn i (k + 1) cs
    else callsOn i (k + 1) cs
  | k, .addData j timestamp data is_key :: cs =>
    if j = i ∧ i < k then .addData 0 timestamp data is_key :: callsOn i k cs else callsOn i k cs
  | k, .terminateCurrentChunk j :: cs => if j = i ∧ i < k then .terminateCurrentChunk 0 :: callsOn i k cs else callsOn i k cs
  | k, .setMediaTime j media_time :: cs => if j = i ∧ i < k then .setMediaTime 0 media_time :: callsOn i k cs else callsOn i k cs

end Mp4.Spec
