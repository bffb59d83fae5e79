import Verif.Model.Writer

/-! # The writing side on a device that can fail

`Model/Writer.lean` runs the writers on a stream that accepts everything.  Here the stream buffer below the `std::ostream` asks a device
whether it takes a byte or a seek.  What matters is which calls look at the result:

* `ostream::write` (used by `bitio::Writer`, src/bitio/writer.cpp:23, 48) sets `badbit` when the buffer refuses, and the callers throw
  when `good()` is false;
* `ostream::seekp` sets `failbit` when the buffer refuses;
* copying through a `std::ostreambuf_iterator` (`BoxHeader::write`, src/box_header.cpp:108; `SimpleWriter::addMdatData`,
  src/writer/simple_writer.cpp:95; `FaststartWriter::copyMdatData`, src/writer/faststart_writer.cpp:153) talks to the buffer directly:
  after a refusal the iterator ignores the rest, and the state of the `ostream` is not touched, so that the `good()` behind it says nothing.

Simplification: a byte counts as stored when the buffer takes it; what a buffer loses later, when the program flushes or closes the stream,
is outside. The intermediate file of `FaststartWriter` is on a device that accepts all writes. -/

namespace Mp4

/-- A device: does it take a byte, or a seek, at its `n`-th access and at a position? -/
structure Device where
  put : Nat → Nat → Bool
  seek : Nat → Nat → Bool

/-- `std::ostream` with its buffer: content and position, `good()`, the number of accesses to the device so far, and (for the statements
of theorems only) the positions at which a byte was refused, and the bytes that were stored and where, in the order of time. -/
structure FStream where
  os : OStream
  good : Bool := true
  tries : Nat := 0
  refused : List Nat := []
  log : List (Nat × Byte) := []
  deriving DecidableEq

namespace FStream

/-- `streambuf::sputc`. -/
def sputc (dev : Device) (s : FStream) (b : Byte) : Bool × FStream :=
  if dev.put s.tries s.os.pos then (true, { s with os := s.os.write [b], tries := s.tries + 1, log := s.log ++ [(s.os.pos, b)] })
  else (false, { s with tries := s.tries + 1, refused := s.os.pos :: s.refused })

/-- `std::copy`/`std::copy_n` to a `std::ostreambuf_iterator<char>`: a refusal makes the iterator `failed()`, later assignments do
nothing. -/
def copyOut (dev : Device) : List Byte → FStream → FStream
  | [], s => s
  | b :: bs, s =>
    match s.sputc dev b with
    | (true, s) => copyOut dev bs s
    | (false, s) => s

/-- `ostream::write(data, 1)`. -/
def writeByte (dev : Device) (s : FStream) (b : Byte) : FStream :=
  if s.good then
    match s.sputc dev b with
    | (true, s) => s
    | (false, s) => { s with good := false }
  else s

/-- `ostream::seekp(o, beg)`. -/
def seekp (dev : Device) (s : FStream) (o : Nat) : FStream :=
  if s.good then
    if dev.seek s.tries o then { s with os := s.os.seekp o, tries := s.tries + 1 }
    else { s with good := false, tries := s.tries + 1 }
  else s

end FStream

/-- `bitio::Writer` on such a stream. -/
structure FWriter where
  s : FStream
  octet : Byte
  width : Nat

/-- `Writer::writeBit` (src/bitio/writer.cpp:40-57); `false`: the exception of lines 49-52. -/
def FWriter.writeBit (dev : Device) (w : FWriter) (bit : Bool) : Bool × FWriter :=
  let octet := if bit then w.octet ||| (1#8 <<< (7 - w.width)) else w.octet
  let width := w.width + 1
  if width = 8 then
    let s := w.s.writeByte dev octet
    if s.good then (true, { s := s, octet := 0, width := 0 }) else (false, { s := s, octet := octet, width := width })
  else (true, { w with octet := octet, width := width })

/-- A sequence of `writeBit` calls, ended by an exception. -/
def FWriter.push (dev : Device) : List Bool → FWriter → Bool × FWriter
  | [], w => (true, w)
  | b :: bs, w =>
    match w.writeBit dev b with
    | (true, w) => push dev bs w
    | (false, w) => (false, w)

/-- A function that writes through a new `bitio::Writer`. -/
def W.runF {α : Type} (dev : Device) (m : W α) (s : FStream) : Except Err α × FStream :=
  match FWriter.push dev m.out ⟨s, 0, 0⟩ with
  | (true, w) => (m.res, w.s)
  | (false, w) => (.error (.exc "bitio::Writer::writeBit(): ostream::write() failed"), w.s)

/-- `BoxHeader::write` (src/box_header.cpp:76-112). -/
def BoxHeader.writeF (dev : Device) (h : BoxHeader) (s : FStream) : Except Err Nat × BoxHeader × FStream :=
  let s := s.seekp dev h.offset
  if s.good then (.ok h.afterWrite.size, h.afterWrite, s.copyOut dev h.headerBytes)
  else (.error (.exc "BoxHeader::write() ostream::seekp() failed"), h, s)

/-- `Box::write` (src/box.cpp:106-108). -/
def Box.writeF (dev : Device) (b : Box) (s : FStream) : Except Err Nat × Box × FStream :=
  match b.header with
  | none => (.error (.ub "m_header is null"), b, s)
  | some h =>
    match h.writeF dev s with
    | (.error e, h', s) => (.error e, { b with header := some h' }, s)
    | (.ok size, h', s) =>
      let (res, s) := b.data.writeData.runF dev s
      (res.map (size + ·), { b with header := some h' }, s)

namespace Tree
mutual
/-- `BoxInfo::write` (src/box_info.cpp:83-89). -/
def writeF (dev : Device) : Tree → FStream → Except Err Unit × Tree × FStream
  | .node b p ls, s =>
    let r := b.writeF dev s
    match r.1 with
    | .error e => (.error e, .node r.2.1 p ls, r.2.2)
    | .ok _ =>
      let q := writeListF dev ls r.2.2
      (q.1, .node r.2.1 p q.2.1, q.2.2)
/-- the loop over the leaves (src/box_info.cpp:86-88) -/
def writeListF (dev : Device) : List Tree → FStream → Except Err Unit × List Tree × FStream
  | [], s => (.ok (), [], s)
  | t :: ts, s =>
    let r := t.writeF dev s
    match r.1 with
    | .error e => (.error e, r.2.1 :: ts, r.2.2)
    | .ok _ =>
      let q := writeListF dev ts r.2.2
      (q.1, r.2.1 :: q.2.1, q.2.2)
end
end Tree

/-- `BoxInfo::write` as a call that returns or throws. -/
def writeTreeF (dev : Device) (t : Tree) (s : FStream) : Except Err (Tree × FStream) :=
  match t.writeF dev s with
  | (.ok (), t, s) => .ok (t, s)
  | (.error e, _, _) => .error e

/-- The `ftyp` box written by both writers, and its size (src/writer/simple_writer.cpp:43-48, faststart_writer.cpp:67-72). -/
def writeFtypF (dev : Device) (ftyp : Ftyp) (s : FStream) : Except Err (Nat × FStream) :=
  match adjustTree (mkInfo (fourcc "ftyp") (.ftyp ftyp) [] []) 0 with
  | .error e => .error e
  | .ok t =>
    match writeTreeF dev t s with
    | .error e => .error e
    | .ok (t, s) =>
      match t.getSize with
      | .error e => .error e
      | .ok n => .ok (n, s)

/-- `if (!m_os.good()) throw …`. -/
def FStream.check (s : FStream) (what : String) : Except Err FStream := if s.good then .ok s else .error (.exc what)

/-! ### SimpleWriter -/

/-- `SimpleWriter` on such a stream: `w` holds the members other than `m_os` (its `os` is not used), `s` the stream. -/
structure FaultySimple where
  dev : Device
  w : SimpleWriter
  s : FStream

namespace FaultySimple

/-- The writer's members, with the content and position of its stream. -/
def members (x : FaultySimple) : SimpleWriter := { x.w with os := x.s.os }

/-- `SimpleWriter::SimpleWriter` (src/writer/simple_writer.cpp:23-40). -/
def new (dev : Device) (os : OStream) (ftyp : Ftyp) (mvhd_timescale : BitVec 32) (mvhd_duration now : BitVec 64) : FaultySimple :=
  { dev, w := SimpleWriter.new os ftyp mvhd_timescale mvhd_duration now, s := { os } }

/-- `Writer::getAndUpdateNextTrackID` (src/writer/writer.cpp:36-40). -/
def getAndUpdateNextTrackID (x : FaultySimple) : BitVec 32 × FaultySimple :=
  (x.w.next_track_id, { x with w := { x.w with next_track_id := x.w.next_track_id + 1 } })

/-- `SimpleWriter::writeFtypBox` (src/writer/simple_writer.cpp:42-55). -/
def writeFtypBox (x : FaultySimple) : Except Err FaultySimple :=
  match writeFtypF x.dev x.w.ftyp x.s with
  | .error e => .error e
  | .ok (size, s) =>
    match (s.seekp x.dev (u64 (size + LARGE_HEADER_SIZE))).check "SimpleWriter::writeFtypBox(): ostream::seekp() failed" with
    | .error e => .error e
    | .ok s => .ok { x with w := { x.w with ftyp_size := some size }, s }

/-- `SimpleWriter::writeFreeBoxAndMdatHeader` (src/writer/simple_writer.cpp:57-92). -/
def writeFreeBoxAndMdatHeader (x : FaultySimple) : Except Err FaultySimple :=
  match initialised x.w.ftyp_size with
  | .error e => .error e
  | .ok ftyp_size =>
    match (x.s.seekp x.dev ftyp_size).check "SimpleWriter::writeFreeBoxAndMdatHeader(): ostream::seekp() failed" with
    | .error e => .error e
    | .ok s =>
      if x.w.mdat_data_size > UINT32_MAX - 8 then
        let mdat : BoxHeader := { offset := ftyp_size, size := u64 (x.w.mdat_data_size + LARGE_HEADER_SIZE),
                                  headerSize := LARGE_HEADER_SIZE, type := fourcc "mdat" }
        match mdat.writeF x.dev s with
        | (.error e, _, _) => .error e
        | (.ok _, _, s) =>
          match s.check "SimpleWriter::writeFreeBoxAndMdatHeader(): ostream::write() failed" with
          | .error e => .error e
          | .ok s => .ok { x with s }
      else
        match adjustTree (mkInfo (fourcc "free") (.opaq ⟨[]⟩) [] []) ftyp_size with
        | .error e => .error e
        | .ok t =>
          match writeTreeF x.dev t s with
          | .error e => .error e
          | .ok (t, s) =>
            match s.check "SimpleWriter::writeFreeBoxAndMdatHeader(): ostream::write() failed" with
            | .error e => .error e
            | .ok s =>
              match t.getSize with
              | .error e => .error e
              | .ok free_size =>
                let mdat : BoxHeader := { offset := u64 (ftyp_size + free_size), size := u64 (x.w.mdat_data_size + SMALL_HEADER_SIZE),
                                          headerSize := SMALL_HEADER_SIZE, type := fourcc "mdat" }
                match mdat.writeF x.dev s with
                | (.error e, _, _) => .error e
                | (.ok _, _, s) =>
                  match s.check "SimpleWriter::writeFreeBoxAndMdatHeader(): ostream::write() failed" with
                  | .error e => .error e
                  | .ok s => .ok { x with s }

/-- `SimpleWriter::addMdatData` (src/writer/simple_writer.cpp:94-101).  It throws when `good()` is false, which cannot be the case after
a `writeFtypBox` that returned (`C69_samples_silent`): nothing before or in this function clears it. -/
def addMdatData (x : FaultySimple) (data : List Byte) : FaultySimple :=
  { x with s := x.s.copyOut x.dev data, w := { x.w with mdat_data_size := u64 (x.w.mdat_data_size + data.length) } }

/-- `SimpleWriter::tellCurrentMdatOffset` (src/writer/simple_writer.cpp:108-115); as for `addMdatData`, `good()` is true. -/
def tellCurrentMdatOffset (x : FaultySimple) : BitVec 64 := BitVec.ofNat 64 x.s.os.pos

instance : MdatWriter FaultySimple := ⟨tellCurrentMdatOffset, addMdatData⟩
instance : TrackWriter FaultySimple := { getAndUpdateNextTrackID := getAndUpdateNextTrackID }

/-- `SimpleWriter::writeMoovBox` with `setOffsetAndSize` (src/writer/simple_writer.cpp:103-106, 117-122). -/
def writeMoovBox (x : FaultySimple) : Except Err FaultySimple :=
  match x.w.setOffsetAndSize with
  | .error e => .error e
  | .ok w =>
    match writeTreeF x.dev (setNextTrackID w.next_track_id w.moov) x.s with
    | .error e => .error e
    | .ok (moov, s) => .ok { x with w := { w with moov }, s }

/-- A program up to the last call on its tracks: the new writer writes `ftyp`, then the calls are made. -/
def session (dev : Device) (os : OStream) (f : Ftyp) (ts : BitVec 32) (dur now : BitVec 64) (calls : List Call) :
    Except Err (Session FaultySimple) :=
  match (new dev os f ts dur now).writeFtypBox with
  | .error e => .error e
  | .ok w => .ok ((Session.mk [] w).calls calls)

/-- The end of a program: `appendTrakAndUdtaBoxInfo`, `writeFreeBoxAndMdatHeader`, `writeMoovBox` (example/mp4-muxer.cpp:135-137). -/
def finish (s : Session FaultySimple) : Except Err FaultySimple :=
  match writeFreeBoxAndMdatHeader { s.writer with w := (s.writer.members.appendTrakAndUdtaBoxInfo s.tracks).1 } with
  | .error e => .error e
  | .ok x => x.writeMoovBox

end FaultySimple

/-! ### FaststartWriter -/

/-- `FaststartWriter` on such a stream: `w` holds the members other than `m_os` (its `os` is not used), `s` the stream. -/
structure FaultyFaststart where
  dev : Device
  w : FaststartWriter
  s : FStream

namespace FaultyFaststart

/-- The writer's members, with the content and position of its stream. -/
def members (x : FaultyFaststart) : FaststartWriter := { x.w with os := x.s.os }

/-- `FaststartWriter::FaststartWriter` (src/writer/faststart_writer.cpp:25-48). -/
def new (dev : Device) (os : OStream) (ftyp : Ftyp) (mvhd_timescale : BitVec 32) (mvhd_duration now : BitVec 64) : FaultyFaststart :=
  { dev, w := FaststartWriter.new os ftyp mvhd_timescale mvhd_duration now, s := { os } }

/-- `FaststartWriter::writeFtypBox` (src/writer/faststart_writer.cpp:66-73). -/
def writeFtypBox (x : FaultyFaststart) : Except Err FaultyFaststart :=
  match writeFtypF x.dev x.w.ftyp x.s with
  | .error e => .error e
  | .ok (size, s) => .ok { x with w := { x.w with ftyp_size := some size }, s }

/-- `FaststartWriter::addMdatData`, `tellCurrentMdatOffset` (src/writer/faststart_writer.cpp:94-100, 106-113): they use the intermediate
file only. -/
instance : MdatWriter FaultyFaststart := ⟨fun x => x.w.tellCurrentMdatOffset, fun x d => { x with w := x.w.addMdatData d }⟩
instance : TrackWriter FaultyFaststart :=
  { getAndUpdateNextTrackID := fun x => (x.w.getAndUpdateNextTrackID.1, { x with w := x.w.getAndUpdateNextTrackID.2 }) }

/-- `FaststartWriter::writeMoovBox` (src/writer/faststart_writer.cpp:115-125). -/
def writeMoovBox (x : FaultyFaststart) : Except Err FaultyFaststart :=
  match initialised x.w.ftyp_size with
  | .error e => .error e
  | .ok ftyp_size =>
    match (x.s.seekp x.dev ftyp_size).check "FaststartWriter::writeFtypBox(): ostream::seekp() failed" with
    | .error e => .error e
    | .ok s =>
      match x.w.moov with
      | none => .error (.ub "m_mvhd_box is not initialised")
      | some moov =>
        match writeTreeF x.dev (setNextTrackID x.w.next_track_id moov) s with
        | .error e => .error e
        | .ok (moov, s) => .ok { x with w := { x.w with moov := some moov }, s }

/-- `FaststartWriter::writeMdatHeader` (src/writer/faststart_writer.cpp:75-92). -/
def writeMdatHeader (x : FaultyFaststart) : Except Err FaultyFaststart :=
  match initialised x.w.ftyp_size with
  | .error e => .error e
  | .ok ftyp_size =>
    match x.w.getMoovSize with
    | .error e => .error e
    | .ok moov_size =>
      let offset := u64 (ftyp_size + moov_size)
      match (x.s.seekp x.dev offset).check "FaststartWriter::writeMdatHeader(): ostream::seekp() failed" with
      | .error e => .error e
      | .ok s =>
        let mdat : BoxHeader := { offset, size := u64 (x.w.mdat_data_size + x.w.getMdatHeaderSize),
                                  headerSize := x.w.getMdatHeaderSize, type := fourcc "mdat" }
        match mdat.writeF x.dev s with
        | (.error e, _, _) => .error e
        | (.ok _, _, s) =>
          match s.check "FaststartWriter::writeMdatHeader(): ostream::write() failed" with
          | .error e => .error e
          | .ok s => .ok { x with s }

/-- The loop of `copyMdatData` (src/writer/faststart_writer.cpp:150-158).  The first argument bounds the number of rounds; `none`: the
loop is still running then.  `reads` says for each round whether `fread` succeeds; when it fails it returns 0 and sets the error indicator
of the file, not its end-of-file indicator. -/
def copyLoop (dev : Device) (reads : Nat → Bool) : Nat → Nat → CFile → FStream → Option (Except Err (CFile × FStream))
  | 0, _, _, _ => none
  | n + 1, round, f, s =>
    if f.eof then some (.ok (f, s))
    else
      let (buffer, f) := if reads round then f.fread COPY_MDAT_DATA_BUFFER_SIZE else ([], f)
      let s := s.copyOut dev buffer
      if s.good then copyLoop dev reads n (round + 1) f s
      else some (.error (.exc "FaststartWriter::copyMdatData(): copying mdat data failed"))

/-- `FaststartWriter::copyMdatData` (src/writer/faststart_writer.cpp:145-166) when the intermediate file can be read; it is closed and
removed afterwards. -/
def copyMdatData (x : FaultyFaststart) : Except Err FaultyFaststart :=
  match copyLoop x.dev (fun _ => true) (x.w.mdat.content.length / COPY_MDAT_DATA_BUFFER_SIZE + 2) 0 x.w.mdat.rewind x.s with
  | none => .error (.exc "not reached: rounds")
  | some (.error e) => .error e
  | some (.ok (mdat, s)) => .ok { x with w := { x.w with mdat }, s }

/-- A program up to the last call on its tracks: the new writer writes `ftyp`, then the calls are made. -/
def session (dev : Device) (os : OStream) (f : Ftyp) (ts : BitVec 32) (dur now : BitVec 64) (calls : List Call) :
    Except Err (Session FaultyFaststart) :=
  match (new dev os f ts dur now).writeFtypBox with
  | .error e => .error e
  | .ok w => .ok ((Session.mk [] w).calls calls)

/-- The end of a program: `appendTrakAndUdtaBoxInfo`, `writeMoovBox`, `writeMdatHeader`, `copyMdatData`
(example/mp4-muxer.cpp:320-323). -/
def finish (s : Session FaultyFaststart) : Except Err FaultyFaststart :=
  match s.writer.members.appendTrakAndUdtaBoxInfo s.tracks with
  | .error e => .error e
  | .ok (w, _) =>
    match FaultyFaststart.writeMoovBox { s.writer with w := w } with
    | .error e => .error e
    | .ok x =>
      match x.writeMdatHeader with
      | .error e => .error e
      | .ok x => x.copyMdatData

end FaultyFaststart
end Mp4
