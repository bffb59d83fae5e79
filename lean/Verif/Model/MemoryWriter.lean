import Verif.Model.Memory
import Verif.Model.Faults

/-! # The objects of the writers in memory

The programs of `Model/Tree.lean`, `Model/Writer.lean` and `Model/Faults.lean` on the heap of `Model/Memory.lean`.

Simplification: tracks, streams and the intermediate file are values as before; a stream is passed through, so that its content behind an
exception is not seen here. -/

namespace Mp4
namespace Mem

/-! ### `Box` and `BoxInfo` -/

/-- `Box::makeHeader` (src/box.cpp:110-115): the header pointed to afterwards. -/
def makeHeader (b : Addr) : M Addr := do
  let x ← box b
  match x.header with
  | some h => return h
  | none =>
    let h ← new (.header { type := x.type })
    setBox b { x with header := some h }
    return h

/-- `Box::getHeaderSize` (src/box.cpp:75-78). -/
def boxHeaderSize (b : Addr) : M Nat := do
  let h ← makeHeader b
  let hd ← header h
  return hd.headerSize

/-- `getDataSize` of the class of the box. -/
def boxDataSize (b : Addr) : M Nat := do
  let x ← box b
  return (x.data.getD .empty).getDataSize

/-- `Box::setOffsetAndDataSize` (src/box.cpp:101-104). -/
def boxSetOffset (b : Addr) (offset data_size : Nat) : M Unit := do
  let h ← makeHeader b
  let hd ← header h
  setHeader h (hd.setOffsetAndDataSize offset data_size)

/-- `Box::getSize` (src/box.cpp:94-99). -/
def boxSize (b : Addr) : M Nat := do
  let x ← box b
  match x.header with
  | none => M.fail (.exc "Box::getSize(): header is not set")
  | some h =>
    let hd ← header h
    return hd.size

/-- `BoxInfo::getSize` (src/box_info.cpp:48-50). -/
def infoSize (a : Addr) : M Nat := do
  let i ← info a
  boxSize i.box

/-- The loop over the leaves in `BoxInfo::adjustOffsetAndSize` (src/box_info.cpp:71-73); `base` is `offset + header_size + data_size`. -/
def adjustLeafsM (adj : Addr → Nat → M Nat) (base : Nat) : List Addr → Nat → M Nat
  | [], leafs_size => return leafs_size
  | l :: ls, leafs_size => do
    let n ← adj l (u64 (base + leafs_size))
    adjustLeafsM adj base ls (u64 (leafs_size + n))

/-- `BoxInfo::adjustOffsetAndSize` (src/box_info.cpp:67-81).  The first argument bounds the recursion. -/
def adjustM : Nat → Addr → Nat → M Nat
  | 0, _, _ => M.stuck
  | fuel + 1, a, offset => do
    let i ← info a
    let header_size ← boxHeaderSize i.box
    let data_size ← boxDataSize i.box
    let leafs_size ← adjustLeafsM (adjustM fuel) (u64 (offset + header_size + data_size)) i.leafs 0
    boxSetOffset i.box offset (u64 (data_size + leafs_size))
    let header_size' ← boxHeaderSize i.box
    if header_size ≠ header_size' then
      let _ ← adjustM fuel a offset
      boxSize i.box
    else boxSize i.box

/-- `Box::write` (src/box.cpp:106-108), as `Box.writeF`. -/
def boxWrite (dev : Device) (b : Addr) (s : FStream) : M FStream := do
  let x ← box b
  match x.header with
  | none => M.fail (.ub "m_header is null")
  | some h =>
    let hd ← header h
    match hd.writeF dev s with
    | (.error e, hd', _) =>
      setHeader h hd'
      M.fail e
    | (.ok _, hd', s) =>
      setHeader h hd'
      match (x.data.getD .empty).writeData.runF dev s with
      | (.error e, _) => M.fail e
      | (.ok _, s) => return s

/-- The loop over the leaves in `BoxInfo::write` (src/box_info.cpp:86-88). -/
def writeLeafsM (w : Addr → FStream → M FStream) : List Addr → FStream → M FStream
  | [], s => return s
  | l :: ls, s => do
    let s ← w l s
    writeLeafsM w ls s

/-- `BoxInfo::write` (src/box_info.cpp:83-89). -/
def writeM (dev : Device) : Nat → Addr → FStream → M FStream
  | 0, _, _ => M.stuck
  | fuel + 1, a, s => do
    let i ← info a
    let s ← boxWrite dev i.box s
    writeLeafsM (writeM dev fuel) i.leafs s

mutual
/-- `new BoxInfo({.parent = parent, .box = new …})` with the type and members given by the tree, followed by the same for the boxes below it
with the new `BoxInfo` as parent.  The functions that build boxes (src/track/*.cpp, src/writer/writer.cpp:42-51) consist of such
statements, in this order; the paths are computed by `BoxInfo`, those in the given tree are not used. -/
def buildM : Option Addr → Tree → M Addr
  | parent, .node bx _ ls => do
    let b ← new (.box { type := bx.type, data := some bx.data })
    let a ← newInfo parent b
    buildLeafsM a ls
    return a
def buildLeafsM : Addr → List Tree → M Unit
  | _, [] => pure ()
  | a, t :: ts => do
    let _ ← buildM (some a) t
    buildLeafsM a ts
end

/-! ### Both writers -/

/-- `m_moov_box_info`. -/
def getMoov : M (Option Addr) := fun s => some (.ok s.moov, s)
/-- `m_moov_box_info = a`. -/
def setMoov (a : Addr) : M Unit := fun s => some (.ok (), { s with moov := some a })
/-- `m_mvhd_box`. -/
def getMvhd : M (Option Addr) := fun s => some (.ok s.mvhd, s)
/-- `m_mvhd_box = b`. -/
def setMvhd (b : Addr) : M Unit := fun s => some (.ok (), { s with mvhd := some b })

/-- `getMoovBoxInfo()` (src/writer/writer.cpp:24-26) where a null pointer is dereferenced. -/
def theMoov : M Addr := do
  match ← getMoov with
  | none => M.fail (.ub "m_moov_box_info is null")
  | some a => return a

/-- The creation of `moov` and `mvhd` (src/writer/simple_writer.cpp:33-39, faststart_writer.cpp:55-62). -/
def newMoovM (m : Mvhd) : M Unit := do
  let mb ← new (.box { type := fourcc "moov", data := some .empty })
  let a ← newInfo none mb
  setMoov a
  let b ← new (.box { type := fourcc "mvhd", data := some (.mvhd m) })
  setMvhd b
  let _ ← newInfo (some a) b
  return ()

/-- `m_mvhd_box->setNextTrackID(id)` (src/box/mvhd.cpp:104-106). -/
def setNextTrackIDM (id : BitVec 32) : M Unit := do
  match ← getMvhd with
  | none => M.fail (.ub "m_mvhd_box is not initialised")
  | some b =>
    let x ← box b
    match x.data with
    | some (.mvhd v) => setBox b { x with data := some (.mvhd { v with next_track_id := id }) }
    | _ => M.fail (.ub "m_mvhd_box does not point to an Mvhd")

/-- The `ftyp` box written by both writers, and its size (src/writer/simple_writer.cpp:43-48, faststart_writer.cpp:67-72). -/
def writeFtypM (dev : Device) (fuel : Nat) (ftyp : Ftyp) (s : FStream) : M (Nat × FStream) := do
  let a ← buildM none (mkInfo (fourcc "ftyp") (.ftyp ftyp) [] [])
  let _ ← adjustM fuel a 0
  let s ← writeM dev fuel a s
  let n ← infoSize a
  deleteInfo fuel a
  return (n, s)

/-- A function without effects on the heap. -/
def pureM {α : Type} (r : Except Err α) : M α :=
  match r with
  | .error e => M.fail e
  | .ok v => pure v

/-- `Writer::appendUdtaBoxInfo` (src/writer/writer.cpp:42-51). -/
def appendUdtaM : M Unit := do
  let a ← theMoov
  let _ ← buildM (some a) (udta [])
  return ()

/-- The loop over the tracks (src/writer/simple_writer.cpp:125-127, faststart_writer.cpp:178-181): `f` is what happens to a track before
`appendTrakBoxInfo`. -/
def appendTracksM (f : Track → Track) : List Track → M (List Track)
  | [] => return []
  | t :: ts => do
    let a ← theMoov
    let t := (f t).finalize
    let _ ← buildM (some a) (t.trak [])
    let ts ← appendTracksM f ts
    return t :: ts

/-- `Writer::~Writer` (src/writer/writer.cpp:14-18). -/
def destroyWriterM (fuel : Nat) : M Unit := do
  match ← getMoov with
  | none => pure ()
  | some a => deleteInfo fuel a

end Mem

open Mem

/-! ### SimpleWriter

The members that are not pointers are those of `FaultySimple`; its tree `w.moov` is not used. -/

namespace FaultySimple

/-- `SimpleWriter::SimpleWriter` (src/writer/simple_writer.cpp:23-40). -/
def newM (dev : Device) (os : OStream) (ftyp : Ftyp) (mvhd_timescale : BitVec 32) (mvhd_duration now : BitVec 64) : M FaultySimple := do
  newMoovM (newMvhd now mvhd_timescale mvhd_duration 1)
  return FaultySimple.new dev os ftyp mvhd_timescale mvhd_duration now

/-- `SimpleWriter::writeFtypBox` (src/writer/simple_writer.cpp:42-55). -/
def writeFtypBoxM (fuel : Nat) (x : FaultySimple) : M FaultySimple := do
  let (size, s) ← writeFtypM x.dev fuel x.w.ftyp x.s
  let s ← pureM ((s.seekp x.dev (u64 (size + LARGE_HEADER_SIZE))).check "SimpleWriter::writeFtypBox(): ostream::seekp() failed")
  return { x with w := { x.w with ftyp_size := some size }, s }

/-- The writing of the header of `mdat`, a local object (src/writer/simple_writer.cpp:64-72, 81-90). -/
def writeMdatHeaderM (dev : Device) (mdat : BoxHeader) (s : FStream) : M FStream :=
  match mdat.writeF dev s with
  | (.error e, _, _) => M.fail e
  | (.ok _, _, s) => pureM (s.check "SimpleWriter::writeFreeBoxAndMdatHeader(): ostream::write() failed")

/-- `SimpleWriter::writeFreeBoxAndMdatHeader` (src/writer/simple_writer.cpp:57-92). -/
def writeFreeBoxAndMdatHeaderM (fuel : Nat) (x : FaultySimple) : M FaultySimple := do
  let ftyp_size ← pureM (initialised x.w.ftyp_size)
  let s ← pureM ((x.s.seekp x.dev ftyp_size).check "SimpleWriter::writeFreeBoxAndMdatHeader(): ostream::seekp() failed")
  if x.w.mdat_data_size > UINT32_MAX - 8 then
    let s ← writeMdatHeaderM x.dev { offset := ftyp_size, size := u64 (x.w.mdat_data_size + LARGE_HEADER_SIZE),
                                     headerSize := LARGE_HEADER_SIZE, type := fourcc "mdat" } s
    return { x with s }
  else
    let a ← buildM none (mkInfo (fourcc "free") (.opaq ⟨[]⟩) [] [])
    let _ ← adjustM fuel a ftyp_size
    let s ← writeM x.dev fuel a s
    let s ← pureM (s.check "SimpleWriter::writeFreeBoxAndMdatHeader(): ostream::write() failed")
    let free_size ← infoSize a
    deleteInfo fuel a
    let s ← writeMdatHeaderM x.dev { offset := u64 (ftyp_size + free_size), size := u64 (x.w.mdat_data_size + SMALL_HEADER_SIZE),
                                     headerSize := SMALL_HEADER_SIZE, type := fourcc "mdat" } s
    return { x with s }

/-- `SimpleWriter::writeMoovBox` with `setOffsetAndSize` (src/writer/simple_writer.cpp:103-106, 117-122). -/
def writeMoovBoxM (fuel : Nat) (x : FaultySimple) : M FaultySimple := do
  let ftyp_size ← pureM (initialised x.w.ftyp_size)
  let a ← theMoov
  let _ ← adjustM fuel a (u64 (u64 (ftyp_size + LARGE_HEADER_SIZE) + x.w.mdat_data_size))
  setNextTrackIDM x.w.next_track_id
  let s ← writeM x.dev fuel a x.s
  return { x with s }

/-- `SimpleWriter::appendTrakAndUdtaBoxInfo` (src/writer/simple_writer.cpp:124-129). -/
def appendTrakAndUdtaBoxInfoM (tracks : List Track) : M Unit := do
  let _ ← appendTracksM id tracks
  appendUdtaM

/-- The calls a program makes on a `SimpleWriter`, itself or through its tracks. -/
inductive Step where
  | writeFtypBox
  | addMdatData (data : List Byte)
  | getAndUpdateNextTrackID
  | appendTrakAndUdtaBoxInfo (tracks : List Track)
  | writeFreeBoxAndMdatHeader
  | writeMoovBox

/-- One call, on values. -/
def step (x : FaultySimple) : Step → Except Err FaultySimple
  | .writeFtypBox => x.writeFtypBox
  | .addMdatData data => .ok (x.addMdatData data)
  | .getAndUpdateNextTrackID => .ok x.getAndUpdateNextTrackID.2
  | .appendTrakAndUdtaBoxInfo tracks => .ok { x with w := (x.w.appendTrakAndUdtaBoxInfo tracks).1 }
  | .writeFreeBoxAndMdatHeader => x.writeFreeBoxAndMdatHeader
  | .writeMoovBox => x.writeMoovBox

/-- Calls until the first exception, on values. -/
def steps (x : FaultySimple) : List Step → Except Err FaultySimple
  | [] => .ok x
  | c :: cs =>
    match x.step c with
    | .error e => .error e
    | .ok x => x.steps cs

/-- The call that throws. -/
def thrower (x : FaultySimple) : List Step → Option Step
  | [] => none
  | c :: cs =>
    match x.step c with
    | .error _ => some c
    | .ok x => x.thrower cs

/-- One call, on the heap. -/
def stepM (fuel : Nat) (x : FaultySimple) : Step → M FaultySimple
  | .writeFtypBox => x.writeFtypBoxM fuel
  | .addMdatData data => return x.addMdatData data
  | .getAndUpdateNextTrackID => return x.getAndUpdateNextTrackID.2
  | .appendTrakAndUdtaBoxInfo tracks => do
    appendTrakAndUdtaBoxInfoM tracks
    return x
  | .writeFreeBoxAndMdatHeader => x.writeFreeBoxAndMdatHeaderM fuel
  | .writeMoovBox => x.writeMoovBoxM fuel

/-- Calls until the first exception, on the heap. -/
def stepsM (fuel : Nat) (x : FaultySimple) : List Step → M FaultySimple
  | [] => return x
  | c :: cs => do
    let x ← x.stepM fuel c
    x.stepsM fuel cs

/-- A program: the constructor and some calls. -/
def programM (fuel : Nat) (dev : Device) (os : OStream) (ftyp : Ftyp) (mvhd_timescale : BitVec 32) (mvhd_duration now : BitVec 64)
    (calls : List Step) : M FaultySimple := do
  let x ← newM dev os ftyp mvhd_timescale mvhd_duration now
  x.stepsM fuel calls

end FaultySimple

/-! ### FaststartWriter

The members that are not pointers are those of `FaultyFaststart`; its tree `w.moov` is not used. -/

namespace FaultyFaststart

/-- `FaststartWriter::setOffsetAndSize` (src/writer/faststart_writer.cpp:102-104). -/
def setOffsetAndSizeM (fuel : Nat) (x : FaultyFaststart) : M Unit := do
  let a ← theMoov
  let ftyp_size ← pureM (initialised x.w.ftyp_size)
  let _ ← adjustM fuel a ftyp_size
  return ()

/-- `FaststartWriter::recreateMoovBoxInfo` (src/writer/faststart_writer.cpp:50-64). -/
def recreateMoovBoxInfoM (fuel : Nat) (x : FaultyFaststart) : M Unit := do
  match ← getMoov with
  | none => pure ()
  | some a => deleteInfo fuel a
  newMoovM (newMvhd x.w.time_from_epoch x.w.mvhd_timescale x.w.mvhd_duration x.w.next_track_id)
  setOffsetAndSizeM fuel x

/-- `FaststartWriter::getMoovSize` (src/writer/faststart_writer.cpp:131-136). -/
def getMoovSizeM : M Nat := do
  match ← getMoov with
  | none => return 0
  | some a => infoSize a

/-- `getFtypSize() + getMoovSize() + getMdatHeaderSize()` (src/writer/faststart_writer.cpp:170, 187). -/
def headSizeM (x : FaultyFaststart) : M Nat := do
  let ftyp_size ← pureM (initialised x.w.ftyp_size)
  let moov_size ← getMoovSizeM
  return u64 (u64 (ftyp_size + moov_size) + x.w.getMdatHeaderSize)

/-- One round of the loop (src/writer/faststart_writer.cpp:172-186): the tracks afterwards, and the new size. -/
def appendRoundM (fuel : Nat) (x : FaultyFaststart) (tracks : List Track) (prev_size size : Nat) : M (List Track × Nat) := do
  recreateMoovBoxInfoM fuel x
  let tracks ← appendTracksM (fun t => t.resetChunkOffsets (BitVec.ofNat 64 (sub64 size prev_size))) tracks
  appendUdtaM
  setOffsetAndSizeM fuel x
  let n ← headSizeM x
  return (tracks, n)

/-- The `do`-`while` loop (src/writer/faststart_writer.cpp:172-192), as `FaststartWriter.appendLoop`. -/
def appendLoopM (fuel : Nat) (x : FaultyFaststart) : Nat → List Track → Nat → Nat → M (List Track)
  | 0, _, _, _ => M.fail (.exc "not reached: rounds")
  | n + 1, tracks, prev_size, size => do
    let (tracks, new_size) ← appendRoundM fuel x tracks prev_size size
    if new_size < size then M.fail (.exc "FaststartWriter::appendTrakAndUdtaBoxInfo(): shrink moov size")
    else if size ≠ new_size then appendLoopM fuel x n tracks size new_size
    else return tracks

/-- `FaststartWriter::appendTrakAndUdtaBoxInfo` (src/writer/faststart_writer.cpp:168-193). -/
def appendTrakAndUdtaBoxInfoM (fuel : Nat) (x : FaultyFaststart) (tracks : List Track) : M (List Track) := do
  let size ← headSizeM x
  appendLoopM fuel x (tracks.length + 3) tracks 0 size

/-- `FaststartWriter::writeFtypBox` (src/writer/faststart_writer.cpp:66-73). -/
def writeFtypBoxM (fuel : Nat) (x : FaultyFaststart) : M FaultyFaststart := do
  let (size, s) ← writeFtypM x.dev fuel x.w.ftyp x.s
  return { x with w := { x.w with ftyp_size := some size }, s }

/-- `FaststartWriter::writeMoovBox` (src/writer/faststart_writer.cpp:115-125). -/
def writeMoovBoxM (fuel : Nat) (x : FaultyFaststart) : M FaultyFaststart := do
  let ftyp_size ← pureM (initialised x.w.ftyp_size)
  let s ← pureM ((x.s.seekp x.dev ftyp_size).check "FaststartWriter::writeFtypBox(): ostream::seekp() failed")
  setNextTrackIDM x.w.next_track_id
  let a ← theMoov
  let s ← writeM x.dev fuel a s
  return { x with s }

/-- `FaststartWriter::writeMdatHeader` (src/writer/faststart_writer.cpp:75-92); the header is a local object. -/
def writeMdatHeaderM (x : FaultyFaststart) : M FaultyFaststart := do
  let ftyp_size ← pureM (initialised x.w.ftyp_size)
  let moov_size ← getMoovSizeM
  let offset := u64 (ftyp_size + moov_size)
  let s ← pureM ((x.s.seekp x.dev offset).check "FaststartWriter::writeMdatHeader(): ostream::seekp() failed")
  match BoxHeader.writeF x.dev { offset, size := u64 (x.w.mdat_data_size + x.w.getMdatHeaderSize),
                                 headerSize := x.w.getMdatHeaderSize, type := fourcc "mdat" } s with
  | (.error e, _, _) => M.fail e
  | (.ok _, _, s) =>
    let s ← pureM (s.check "FaststartWriter::writeMdatHeader(): ostream::write() failed")
    return { x with s }

/-- The calls a program makes on a `FaststartWriter`, itself or through its tracks (`copyMdatData`, which closes and removes the
intermediate file and uses no boxes, left out). -/
inductive Step where
  | writeFtypBox
  | addMdatData (data : List Byte)
  | getAndUpdateNextTrackID
  | appendTrakAndUdtaBoxInfo (tracks : List Track)
  | writeMoovBox
  | writeMdatHeader

/-- One call, on values. -/
def step (x : FaultyFaststart) : Step → Except Err FaultyFaststart
  | .writeFtypBox => x.writeFtypBox
  | .addMdatData data => .ok { x with w := x.w.addMdatData data }
  | .getAndUpdateNextTrackID => .ok { x with w := x.w.getAndUpdateNextTrackID.2 }
  | .appendTrakAndUdtaBoxInfo tracks =>
    match x.w.appendTrakAndUdtaBoxInfo tracks with
    | .error e => .error e
    | .ok (w, _) => .ok { x with w }
  | .writeMoovBox => x.writeMoovBox
  | .writeMdatHeader => x.writeMdatHeader

/-- Calls until the first exception, on values. -/
def steps (x : FaultyFaststart) : List Step → Except Err FaultyFaststart
  | [] => .ok x
  | c :: cs =>
    match x.step c with
    | .error e => .error e
    | .ok x => x.steps cs

/-- The call that throws. -/
def thrower (x : FaultyFaststart) : List Step → Option Step
  | [] => none
  | c :: cs =>
    match x.step c with
    | .error _ => some c
    | .ok x => x.thrower cs

/-- One call, on the heap. -/
def stepM (fuel : Nat) (x : FaultyFaststart) : Step → M FaultyFaststart
  | .writeFtypBox => x.writeFtypBoxM fuel
  | .addMdatData data => return { x with w := x.w.addMdatData data }
  | .getAndUpdateNextTrackID => return { x with w := x.w.getAndUpdateNextTrackID.2 }
  | .appendTrakAndUdtaBoxInfo tracks => do
    let _ ← x.appendTrakAndUdtaBoxInfoM fuel tracks
    return x
  | .writeMoovBox => x.writeMoovBoxM fuel
  | .writeMdatHeader => x.writeMdatHeaderM

/-- Calls until the first exception, on the heap. -/
def stepsM (fuel : Nat) (x : FaultyFaststart) : List Step → M FaultyFaststart
  | [] => return x
  | c :: cs => do
    let x ← x.stepM fuel c
    x.stepsM fuel cs

end FaultyFaststart
end Mp4
