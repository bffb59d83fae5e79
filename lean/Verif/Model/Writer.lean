import Verif.Model.Track

/-! # The writers (`src/writer/*.cpp`)

I/O failures are not modelled (`good()` holds, `fwrite`, `fseek`, `mkstemp` succeed), so the exceptions for them cannot occur here.
`std::ostream` is a file stream: `seekp` behind the end is allowed and the gap reads as zero. -/

namespace Mp4

/-! ### Both writers -/

/-- `box::Mvhd({...})` as both writers construct it (src/writer/simple_writer.cpp:34-38, faststart_writer.cpp:57-61, defaults
include/shiguredo/mp4/box/mvhd.hpp:14-26). -/
def newMvhd (time_from_epoch : BitVec 64) (timescale : BitVec 32) (duration : BitVec 64) (next_track_id : BitVec 32) : Mvhd :=
  { version := 0, f0 := 0, f1 := 0, f2 := 0, creation_time := time_from_epoch, modification_time := time_from_epoch,
    timescale, duration, rate := 0x10000, volume := 256, reserved := 0, reserved2 := 0, reserved3 := 0,
    matrix := unityMatrix, pre_defined := #v[0, 0, 0, 0, 0, 0], next_track_id }

/-- `new BoxInfo(moov)` with an `mvhd` box under it (src/writer/simple_writer.cpp:33-39, faststart_writer.cpp:55-62). -/
def newMoov (m : Mvhd) : Tree := mkInfo (fourcc "moov") .empty [mkInfo (fourcc "mvhd") (.mvhd m) []] []

/-- `m_mvhd_box->setNextTrackID(id)` (src/box/mvhd.cpp:104-106): `m_mvhd_box` is the first leaf of `moov`. -/
def setNextTrackID (id : BitVec 32) : Tree → Tree
  | .node b p (.node m mp mls :: ls) =>
    .node b p (.node { m with data := match m.data with
      | .mvhd v => .mvhd { v with next_track_id := id }
      | d => d } mp mls :: ls)
  | t => t

/-- `Writer::appendUdtaBoxInfo` with its default argument (src/writer/writer.cpp:42-51,
include/shiguredo/mp4/writer/writer.hpp:46-47). -/
def udta : Mk :=
  mkInfo (fourcc "udta") .empty [
    mkInfo (fourcc "meta") (.metaBox ⟨version0⟩) [
      mkInfo (fourcc "hdlr") (.hdlr
        { version := 0, f0 := 0, f1 := 0, f2 := 0, pre_defined := 0, handler_type := fourcc "mdir",
          manufacturer := ⟨0, 0, 0, 0⟩, hflags := ⟨0, 0, 0, 0⟩, flags_mask := ⟨0, 0, 0, 0⟩, name := [], padding := [] }) [],
      mkInfo (fourcc "ilst") .empty [
        mkInfo ⟨0xa9, 0x74, 0x6f, 0x6f⟩ .empty [
          mkInfo (fourcc "data") (.data ⟨1, 0, shiguredoMp4⟩) []]]]]

def appendUdtaBoxInfo : Tree → Tree
  | .node b p ls => .node b p (ls ++ [udta p])

/-- The loop over the tracks in `SimpleWriter::appendTrakAndUdtaBoxInfo` (src/writer/simple_writer.cpp:125-127).
Simplification: the tracks are distinct objects. -/
def appendTracks : List Track → Tree → List Track × Tree
  | [], moov => ([], moov)
  | t :: ts, moov =>
    let (t, moov) := t.appendTrakBoxInfo moov
    let (ts, moov) := appendTracks ts moov
    (t :: ts, moov)

/-- `adjustOffsetAndSize`, as a call that returns.  (`C12_terminates`: the recursion always ends.) -/
def adjustTree (t : Tree) (offset : Nat) : Except Err Tree :=
  match t.adjustOffsetAndSize offset with
  | none => .error (.exc "not reached: recursion of adjustOffsetAndSize")
  | some (_, t) => .ok t

/-- `BoxInfo::write` as a call that returns or throws. -/
def writeTree (t : Tree) (os : OStream) : Except Err (Tree × OStream) :=
  match t.write os with
  | (.ok (), t, os) => .ok (t, os)
  | (.error e, _, _) => .error e

/-- `m_ftyp_size` is not initialised before `writeFtypBox` (include/shiguredo/mp4/writer/writer.hpp:58). -/
def initialised : Option Nat → Except Err Nat
  | none => .error (.ub "m_ftyp_size is not initialised")
  | some n => .ok n

/-- The `ftyp` box written by both writers, and its size (src/writer/simple_writer.cpp:43-48, faststart_writer.cpp:67-72). -/
def writeFtyp (ftyp : Ftyp) (os : OStream) : Except Err (Nat × OStream) :=
  match adjustTree (mkInfo (fourcc "ftyp") (.ftyp ftyp) [] []) 0 with
  | .error e => .error e
  | .ok t =>
    match writeTree t os with
    | .error e => .error e
    | .ok (t, os) =>
      match t.getSize with
      | .error e => .error e
      | .ok n => .ok (n, os)

/-! ### SimpleWriter -/

/-- `SimpleWriter` with its base class (include/shiguredo/mp4/writer/simple_writer.hpp:28-48, writer.hpp:53-64).
Simplification: `m_duration` (a `float`) is represented by the value computed from it once, in the constructor. -/
structure SimpleWriter where
  os : OStream
  ftyp : Ftyp
  mvhd_timescale : BitVec 32
  time_from_epoch : BitVec 64
  ftyp_size : Option Nat := none
  mdat_data_size : Nat := 0
  next_track_id : BitVec 32 := 1
  moov : Tree

namespace SimpleWriter

/-- `SimpleWriter::SimpleWriter` (src/writer/simple_writer.cpp:23-40).  `now` is the clock reading converted by
`convert_to_epoch_19040101`, `mvhd_duration` the product of time scale and duration. -/
def new (os : OStream) (ftyp : Ftyp) (mvhd_timescale : BitVec 32) (mvhd_duration now : BitVec 64) : SimpleWriter :=
  { os, ftyp, mvhd_timescale, time_from_epoch := now, moov := newMoov (newMvhd now mvhd_timescale mvhd_duration 1) }

/-- `Writer::getAndUpdateNextTrackID` (src/writer/writer.cpp:36-40). -/
def getAndUpdateNextTrackID (w : SimpleWriter) : BitVec 32 × SimpleWriter :=
  (w.next_track_id, { w with next_track_id := w.next_track_id + 1 })

/-- `SimpleWriter::writeFtypBox` (src/writer/simple_writer.cpp:42-55). -/
def writeFtypBox (w : SimpleWriter) : Except Err SimpleWriter :=
  match writeFtyp w.ftyp w.os with
  | .error e => .error e
  | .ok (size, os) => .ok { w with ftyp_size := some size, os := os.seekp (u64 (size + LARGE_HEADER_SIZE)) }

/-- `SimpleWriter::writeFreeBoxAndMdatHeader` (src/writer/simple_writer.cpp:57-92). -/
def writeFreeBoxAndMdatHeader (w : SimpleWriter) : Except Err SimpleWriter :=
  match initialised w.ftyp_size with
  | .error e => .error e
  | .ok ftyp_size =>
    let os := w.os.seekp ftyp_size
    if w.mdat_data_size > UINT32_MAX - 8 then
      let mdat : BoxHeader := { offset := ftyp_size, size := u64 (w.mdat_data_size + LARGE_HEADER_SIZE),
                                headerSize := LARGE_HEADER_SIZE, type := fourcc "mdat" }
      .ok { w with os := (mdat.write os).2.2 }
    else
      match adjustTree (mkInfo (fourcc "free") (.opaq ⟨[]⟩) [] []) ftyp_size with
      | .error e => .error e
      | .ok t =>
        match writeTree t os with
        | .error e => .error e
        | .ok (t, os) =>
          match t.getSize with
          | .error e => .error e
          | .ok free_size =>
            let mdat : BoxHeader := { offset := u64 (ftyp_size + free_size), size := u64 (w.mdat_data_size + SMALL_HEADER_SIZE),
                                      headerSize := SMALL_HEADER_SIZE, type := fourcc "mdat" }
            .ok { w with os := (mdat.write os).2.2 }

/-- `SimpleWriter::addMdatData` (src/writer/simple_writer.cpp:94-101). -/
def addMdatData (w : SimpleWriter) (data : List Byte) : SimpleWriter :=
  { w with os := w.os.write data, mdat_data_size := u64 (w.mdat_data_size + data.length) }

/-- `SimpleWriter::tellCurrentMdatOffset` (src/writer/simple_writer.cpp:108-115). -/
def tellCurrentMdatOffset (w : SimpleWriter) : BitVec 64 := BitVec.ofNat 64 w.os.pos

instance : MdatWriter SimpleWriter := ⟨tellCurrentMdatOffset, addMdatData⟩

/-- `SimpleWriter::setOffsetAndSize` (src/writer/simple_writer.cpp:103-106). -/
def setOffsetAndSize (w : SimpleWriter) : Except Err SimpleWriter :=
  match initialised w.ftyp_size with
  | .error e => .error e
  | .ok ftyp_size =>
    match adjustTree w.moov (u64 (u64 (ftyp_size + LARGE_HEADER_SIZE) + w.mdat_data_size)) with
    | .error e => .error e
    | .ok moov => .ok { w with moov }

/-- `SimpleWriter::writeMoovBox` (src/writer/simple_writer.cpp:117-122). -/
def writeMoovBox (w : SimpleWriter) : Except Err SimpleWriter :=
  match w.setOffsetAndSize with
  | .error e => .error e
  | .ok w =>
    match writeTree (setNextTrackID w.next_track_id w.moov) w.os with
    | .error e => .error e
    | .ok (moov, os) => .ok { w with moov, os }

/-- `SimpleWriter::appendTrakAndUdtaBoxInfo` (src/writer/simple_writer.cpp:124-129). -/
def appendTrakAndUdtaBoxInfo (w : SimpleWriter) (tracks : List Track) : SimpleWriter × List Track :=
  let (tracks, moov) := appendTracks tracks w.moov
  ({ w with moov := appendUdtaBoxInfo moov }, tracks)

end SimpleWriter

/-! ### FaststartWriter -/

/-- A C `FILE*` opened with "w+": content, position, end-of-file flag. -/
structure CFile where
  content : List Byte := []
  pos : Nat := 0
  eof : Bool := false
  deriving DecidableEq, Repr

/-- `fwrite`: overwrites at the position and extends the file. -/
def CFile.fwrite (f : CFile) (data : List Byte) : CFile :=
  let os := (OStream.mk f.content f.pos).write data
  { f with content := os.data, pos := os.pos }

/-- `fseek(f, 0, SEEK_SET)`: also clears the end-of-file flag. -/
def CFile.rewind (f : CFile) : CFile := { f with pos := 0, eof := false }

/-- `fread(buffer, 1, n, f)`: at most `n` bytes; the end-of-file flag is set when there are fewer. -/
def CFile.fread (f : CFile) (n : Nat) : List Byte × CFile :=
  let got := slice f.content f.pos n
  (got, { f with pos := f.pos + got.length, eof := f.eof || decide (got.length < n) })

/-- `FaststartWriter` with its base class (include/shiguredo/mp4/writer/faststart_writer.hpp:34-65, writer.hpp:53-64).
Simplification: as for `SimpleWriter`; the name of the intermediate file is left out. -/
structure FaststartWriter where
  os : OStream
  ftyp : Ftyp
  mvhd_timescale : BitVec 32
  mvhd_duration : BitVec 64
  time_from_epoch : BitVec 64
  mdat : CFile := {}
  ftyp_size : Option Nat := none
  mdat_data_size : Nat := 0
  next_track_id : BitVec 32 := 1
  moov : Option Tree := none

/-- `COPY_MDAT_DATA_BUFFER_SIZE` (include/shiguredo/mp4/writer/faststart_writer.hpp:20). -/
def COPY_MDAT_DATA_BUFFER_SIZE : Nat := 1024 * 1024

namespace FaststartWriter

/-- `FaststartWriter::FaststartWriter` (src/writer/faststart_writer.cpp:25-48). -/
def new (os : OStream) (ftyp : Ftyp) (mvhd_timescale : BitVec 32) (mvhd_duration now : BitVec 64) : FaststartWriter :=
  { os, ftyp, mvhd_timescale, mvhd_duration, time_from_epoch := now }

/-- `Writer::getAndUpdateNextTrackID` (src/writer/writer.cpp:36-40). -/
def getAndUpdateNextTrackID (w : FaststartWriter) : BitVec 32 × FaststartWriter :=
  (w.next_track_id, { w with next_track_id := w.next_track_id + 1 })

/-- `FaststartWriter::writeFtypBox` (src/writer/faststart_writer.cpp:66-73). -/
def writeFtypBox (w : FaststartWriter) : Except Err FaststartWriter :=
  match writeFtyp w.ftyp w.os with
  | .error e => .error e
  | .ok (size, os) => .ok { w with ftyp_size := some size, os }

/-- `FaststartWriter::addMdatData` (src/writer/faststart_writer.cpp:94-100). -/
def addMdatData (w : FaststartWriter) (data : List Byte) : FaststartWriter :=
  { w with mdat := w.mdat.fwrite data, mdat_data_size := u64 (w.mdat_data_size + data.length) }

/-- `FaststartWriter::tellCurrentMdatOffset` (src/writer/faststart_writer.cpp:106-113). -/
def tellCurrentMdatOffset (w : FaststartWriter) : BitVec 64 := BitVec.ofNat 64 w.mdat.pos

instance : MdatWriter FaststartWriter := ⟨tellCurrentMdatOffset, addMdatData⟩

/-- `FaststartWriter::getMdatHeaderSize` (src/writer/faststart_writer.cpp:138-143). -/
def getMdatHeaderSize (w : FaststartWriter) : Nat :=
  if w.mdat_data_size > UINT32_MAX - 8 then LARGE_HEADER_SIZE else SMALL_HEADER_SIZE

/-- `FaststartWriter::getMoovSize` (src/writer/faststart_writer.cpp:131-136). -/
def getMoovSize (w : FaststartWriter) : Except Err Nat :=
  match w.moov with
  | none => .ok 0
  | some moov => moov.getSize

/-- `FaststartWriter::setOffsetAndSize` (src/writer/faststart_writer.cpp:102-104). -/
def setOffsetAndSize (w : FaststartWriter) : Except Err FaststartWriter :=
  match w.moov with
  | none => .error (.ub "m_moov_box_info is null")
  | some moov =>
    match initialised w.ftyp_size with
    | .error e => .error e
    | .ok ftyp_size =>
      match adjustTree moov ftyp_size with
      | .error e => .error e
      | .ok moov => .ok { w with moov := some moov }

/-- `FaststartWriter::recreateMoovBoxInfo` (src/writer/faststart_writer.cpp:50-64). -/
def recreateMoovBoxInfo (w : FaststartWriter) : Except Err FaststartWriter :=
  setOffsetAndSize
    { w with moov := some (newMoov (newMvhd w.time_from_epoch w.mvhd_timescale w.mvhd_duration w.next_track_id)) }

/-- `getFtypSize() + getMoovSize() + getMdatHeaderSize()` (src/writer/faststart_writer.cpp:170, 187). -/
def headSize (w : FaststartWriter) : Except Err Nat :=
  match initialised w.ftyp_size with
  | .error e => .error e
  | .ok ftyp_size =>
    match w.getMoovSize with
    | .error e => .error e
    | .ok moov_size => .ok (u64 (u64 (ftyp_size + moov_size) + w.getMdatHeaderSize))

/-- The loop over the tracks (src/writer/faststart_writer.cpp:178-181). -/
def shiftAndAppend (diff : Nat) : List Track → Tree → List Track × Tree
  | [], moov => ([], moov)
  | t :: ts, moov =>
    let (t, moov) := (t.resetChunkOffsets (BitVec.ofNat 64 diff)).appendTrakBoxInfo moov
    let (ts, moov) := shiftAndAppend diff ts moov
    (t :: ts, moov)

/-- One round of the loop (src/writer/faststart_writer.cpp:172-186): the writer and the tracks afterwards, and the new size. -/
def appendRound (w : FaststartWriter) (tracks : List Track) (prev_size size : Nat) :
    Except Err (FaststartWriter × List Track × Nat) :=
  match w.recreateMoovBoxInfo with
  | .error e => .error e
  | .ok w =>
    match w.moov with
    | none => .error (.ub "m_moov_box_info is null")
    | some moov =>
      let (tracks, moov) := shiftAndAppend (sub64 size prev_size) tracks moov
      match setOffsetAndSize { w with moov := some (appendUdtaBoxInfo moov) } with
      | .error e => .error e
      | .ok w =>
        match w.headSize with
        | .error e => .error e
        | .ok n => .ok (w, tracks, n)

/-- The `do`-`while` loop (src/writer/faststart_writer.cpp:172-192).  The first argument bounds the number of rounds;
`C42_loop_ends` shows that the bound used below is never reached. -/
def appendLoop : Nat → FaststartWriter → List Track → Nat → Nat → Except Err (FaststartWriter × List Track)
  | 0, _, _, _, _ => .error (.exc "not reached: rounds")
  | n + 1, w, tracks, prev_size, size =>
    match w.appendRound tracks prev_size size with
    | .error e => .error e
    | .ok (w, tracks, new_size) =>
      if new_size < size then .error (.exc "FaststartWriter::appendTrakAndUdtaBoxInfo(): shrink moov size")
      else if size ≠ new_size then appendLoop n w tracks size new_size
      else .ok (w, tracks)

/-- `FaststartWriter::appendTrakAndUdtaBoxInfo` (src/writer/faststart_writer.cpp:168-193). -/
def appendTrakAndUdtaBoxInfo (w : FaststartWriter) (tracks : List Track) : Except Err (FaststartWriter × List Track) :=
  match w.headSize with
  | .error e => .error e
  | .ok size => appendLoop (tracks.length + 3) w tracks 0 size

/-- `FaststartWriter::writeMoovBox` (src/writer/faststart_writer.cpp:115-125). -/
def writeMoovBox (w : FaststartWriter) : Except Err FaststartWriter :=
  match initialised w.ftyp_size with
  | .error e => .error e
  | .ok ftyp_size =>
    match w.moov with
    | none => .error (.ub "m_mvhd_box is not initialised")
    | some moov =>
      match writeTree (setNextTrackID w.next_track_id moov) (w.os.seekp ftyp_size) with
      | .error e => .error e
      | .ok (moov, os) => .ok { w with moov := some moov, os }

/-- `FaststartWriter::writeMdatHeader` (src/writer/faststart_writer.cpp:75-92). -/
def writeMdatHeader (w : FaststartWriter) : Except Err FaststartWriter :=
  match initialised w.ftyp_size with
  | .error e => .error e
  | .ok ftyp_size =>
    match w.getMoovSize with
    | .error e => .error e
    | .ok moov_size =>
      let offset := u64 (ftyp_size + moov_size)
      let mdat : BoxHeader := { offset, size := u64 (w.mdat_data_size + w.getMdatHeaderSize),
                                headerSize := w.getMdatHeaderSize, type := fourcc "mdat" }
      .ok { w with os := (mdat.write (w.os.seekp offset)).2.2 }

/-- The loop of `copyMdatData` (src/writer/faststart_writer.cpp:150-158); the first argument bounds the number of rounds
(`C43_copy` shows that the bound used below is never reached). -/
def copyLoop : Nat → CFile → OStream → Except Err (CFile × OStream)
  | 0, _, _ => .error (.exc "not reached: rounds")
  | n + 1, f, os =>
    if f.eof then .ok (f, os)
    else
      let (buffer, f) := f.fread COPY_MDAT_DATA_BUFFER_SIZE
      copyLoop n f (os.write buffer)

/-- `FaststartWriter::copyMdatData` (src/writer/faststart_writer.cpp:145-166).  The intermediate file is closed and removed
afterwards; using the writer's `addMdatData` after that is not modelled. -/
def copyMdatData (w : FaststartWriter) : Except Err FaststartWriter :=
  match copyLoop (w.mdat.content.length / COPY_MDAT_DATA_BUFFER_SIZE + 2) w.mdat.rewind w.os with
  | .error e => .error e
  | .ok (mdat, os) => .ok { w with mdat, os }

end FaststartWriter

/-! ### A program using a writer and several tracks -/

/-- A writer as seen by a program between `writeFtypBox` and `appendTrakAndUdtaBoxInfo`. -/
class TrackWriter (σ : Type) extends MdatWriter σ where
  getAndUpdateNextTrackID : σ → BitVec 32 × σ

instance : TrackWriter SimpleWriter := { getAndUpdateNextTrackID := SimpleWriter.getAndUpdateNextTrackID }
instance : TrackWriter FaststartWriter := { getAndUpdateNextTrackID := FaststartWriter.getAndUpdateNextTrackID }

/-- The tracks and the writer of a program. -/
structure Session (σ : Type) where
  tracks : List Track
  writer : σ

/-- The calls such a program can make (include/shiguredo/mp4/track/track.hpp:49-57, writer.hpp:38). Tracks are numbered in the order
of their construction. -/
inductive Call where
  | getAndUpdateNextTrackID
  | newTrack (p : TrackParameters) (codec : Codec)
  | addData (track : Nat) (timestamp : BitVec 64) (data : List Byte) (is_key : Bool)
  | terminateCurrentChunk (track : Nat)
  | setMediaTime (track : Nat) (media_time : BitVec 64)

/-- One call.  An exception is caught by the program; a constructor that throws gives no track. A call on a track that
does not exist cannot be written; here it does nothing. -/
def Session.call {σ : Type} [TrackWriter σ] (s : Session σ) : Call → Session σ
  | .getAndUpdateNextTrackID => ⟨s.tracks, (TrackWriter.getAndUpdateNextTrackID s.writer).2⟩
  | .newTrack p codec =>
    match Track.new p codec with
    | .error _ => s
    | .ok t => ⟨s.tracks ++ [t], s.writer⟩
  | .addData i timestamp data is_key =>
    match s.tracks[i]? with
    | none => s
    | some t => ⟨s.tracks.set i (t.addData s.writer timestamp data is_key).2.1, (t.addData s.writer timestamp data is_key).2.2⟩
  | .terminateCurrentChunk i =>
    match s.tracks[i]? with
    | none => s
    | some t => ⟨s.tracks.set i t.terminateCurrentChunk, s.writer⟩
  | .setMediaTime i media_time =>
    match s.tracks[i]? with
    | none => s
    | some t => ⟨s.tracks.set i (t.setMediaTime media_time), s.writer⟩

/-- A sequence of calls. -/
def Session.calls {σ : Type} [TrackWriter σ] : Session σ → List Call → Session σ
  | s, [] => s
  | s, c :: cs => (s.call c).calls cs

/-- The ids returned by the calls of `getAndUpdateNextTrackID` among a sequence of calls (src/writer/writer.cpp:36-40). -/
def Session.ids {σ : Type} [TrackWriter σ] : Session σ → List Call → List (BitVec 32)
  | _, [] => []
  | s, .getAndUpdateNextTrackID :: cs =>
    (TrackWriter.getAndUpdateNextTrackID s.writer).1 :: (s.call .getAndUpdateNextTrackID).ids cs
  | s, c :: cs => (s.call c).ids cs

/-- The end of a program with a `SimpleWriter`: `appendTrakAndUdtaBoxInfo`, `writeFreeBoxAndMdatHeader`, `writeMoovBox`
(the order in example/mp4-muxer.cpp:135-137). -/
def SimpleWriter.finish (s : Session SimpleWriter) : Except Err SimpleWriter :=
  match (s.writer.appendTrakAndUdtaBoxInfo s.tracks).1.writeFreeBoxAndMdatHeader with
  | .error e => .error e
  | .ok w => w.writeMoovBox

/-- The end of a program with a `FaststartWriter`: `appendTrakAndUdtaBoxInfo`, `writeMoovBox`, `writeMdatHeader`,
`copyMdatData` (the order in example/mp4-muxer.cpp:320-323). -/
def FaststartWriter.finish (s : Session FaststartWriter) : Except Err FaststartWriter :=
  match s.writer.appendTrakAndUdtaBoxInfo s.tracks with
  | .error e => .error e
  | .ok (w, _) =>
    match w.writeMoovBox with
    | .error e => .error e
    | .ok w =>
      match w.writeMdatHeader with
      | .error e => .error e
      | .ok w => w.copyMdatData

end Mp4
