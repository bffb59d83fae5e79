import Verif.Model.Writer

/-! # The public calls on a writer, in any order

`Model/Writer.lean` has the functions; here a program makes any public calls, in any order, and catches exceptions, so that the state left
behind by a call that throws is needed too.  As in `Model/Writer.lean` the output stream and the C library do not fail. -/

namespace Mp4

/-- `Writer::appendUdtaBoxInfo` with any argument (src/writer/writer.cpp:42-51). -/
def udtaWith (d : Data) : Mk :=
  mkInfo (fourcc "udta") .empty [
    mkInfo (fourcc "meta") (.metaBox ⟨version0⟩) [
      mkInfo (fourcc "hdlr") (.hdlr
        { version := 0, f0 := 0, f1 := 0, f2 := 0, pre_defined := 0, handler_type := fourcc "mdir",
          manufacturer := ⟨0, 0, 0, 0⟩, hflags := ⟨0, 0, 0, 0⟩, flags_mask := ⟨0, 0, 0, 0⟩, name := [], padding := [] }) [],
      mkInfo (fourcc "ilst") .empty [
        mkInfo ⟨0xa9, 0x74, 0x6f, 0x6f⟩ .empty [
          mkInfo (fourcc "data") (.data d) []]]]]

/-- `Writer::appendUdtaBoxInfo` (src/writer/writer.cpp:42-51) on a `moov` that exists. -/
def appendUdtaWith (d : Data) : Tree → Tree
  | .node b p ls => .node b p (ls ++ [udtaWith d p])

/-- How a call of a member function ends. -/
inductive Ends where
  | returned
  | threw (what : String)
  | undefined (what : String)
  deriving DecidableEq, Repr

/-- The end of a call whose result is given as a value of `Except`. -/
def Ends.of {α : Type} : Except Err α → Ends
  | .ok _ => .returned
  | .error .eof => .threw "eof"
  | .error (.exc what) => .threw what
  | .error (.ub what) => .undefined what

/-! ### SimpleWriter -/

/-- The public member functions of `SimpleWriter` with their arguments (include/shiguredo/mp4/writer/simple_writer.hpp:28-48,
writer.hpp:31-51; the functions of `Track` call `addMdatData` and `tellCurrentMdatOffset` only).  The getters are left out. -/
inductive SimpleCall where
  | writeFtypBox
  | writeFreeBoxAndMdatHeader
  | writeMoovBox
  | addMdatData (data : List Byte)
  | tellCurrentMdatOffset
  | appendTrakAndUdtaBoxInfo (tracks : List Track)
  | appendUdtaBoxInfo (data : Data)
  | getAndUpdateNextTrackID

namespace SimpleWriter

/-- One call.  What a call that does not return leaves behind is not needed: `C81_simple` shows that none throws. -/
def step (w : SimpleWriter) : SimpleCall → Except Err SimpleWriter
  | .writeFtypBox => w.writeFtypBox
  | .writeFreeBoxAndMdatHeader => w.writeFreeBoxAndMdatHeader
  | .writeMoovBox => w.writeMoovBox
  | .addMdatData data => .ok (w.addMdatData data)
  | .tellCurrentMdatOffset => .ok w
  | .appendTrakAndUdtaBoxInfo tracks => .ok (w.appendTrakAndUdtaBoxInfo tracks).1
  | .appendUdtaBoxInfo data => .ok { w with moov := appendUdtaWith data w.moov }
  | .getAndUpdateNextTrackID => .ok w.getAndUpdateNextTrackID.2

/-- `w` is what the calls, made one after the other on `w0`, leave; all of them returned. -/
inductive After (w0 : SimpleWriter) : List SimpleCall → SimpleWriter → Prop
  | start : After w0 [] w0
  | call {h : List SimpleCall} {w w' : SimpleWriter} {c : SimpleCall} : After w0 h w → w.step c = .ok w' → After w0 (h ++ [c]) w'

end SimpleWriter

/-! ### FaststartWriter -/

/-- The public member functions of `FaststartWriter` with their arguments (include/shiguredo/mp4/writer/faststart_writer.hpp:34-65,
writer.hpp:31-51). -/
inductive FaststartCall where
  | writeFtypBox
  | writeMdatHeader
  | writeMoovBox
  | addMdatData (data : List Byte)
  | tellCurrentMdatOffset
  | appendTrakAndUdtaBoxInfo (tracks : List Track)
  | appendUdtaBoxInfo (data : Data)
  | getAndUpdateNextTrackID
  | copyMdatData
  | deleteIntermediateFile

/-- A `FaststartWriter`, whether the `FILE` of its intermediate file is open, and whether the file is in its directory. -/
structure OpenFaststart where
  w : FaststartWriter
  isOpen : Bool := true
  present : Bool := true

namespace FaststartWriter

/-- The `do`-`while` loop (src/writer/faststart_writer.cpp:172-192), with the writer that an exception leaves behind.  The first argument
bounds the number of rounds. -/
def appendLoopKept : Nat → FaststartWriter → List Track → Nat → Nat → Except Err Unit × FaststartWriter
  | 0, w, _, _, _ => (.error (.exc "not reached: rounds"), w)
  | n + 1, w, tracks, prev_size, size =>
    match w.appendRound tracks prev_size size with
    | .error e => (.error e, w)
    | .ok (w, tracks, new_size) =>
      if new_size < size then (.error (.exc "FaststartWriter::appendTrakAndUdtaBoxInfo(): shrink moov size"), w)
      else if size ≠ new_size then appendLoopKept n w tracks size new_size
      else (.ok (), w)

/-- `FaststartWriter::appendTrakAndUdtaBoxInfo` (src/writer/faststart_writer.cpp:168-193).  Sizes are 64-bit numbers and grow from round to
round, so that the bound is never reached (`C81_faststart_throws`). -/
def appendKept (w : FaststartWriter) (tracks : List Track) : Except Err Unit × FaststartWriter :=
  match w.headSize with
  | .error e => (.error e, w)
  | .ok size => appendLoopKept (2 ^ 64) w tracks 0 size

end FaststartWriter

namespace OpenFaststart

/-- `FaststartWriter::deleteIntermediateFile` (src/writer/faststart_writer.cpp:195-200). -/
def deleteIntermediateFile (s : OpenFaststart) : Ends × OpenFaststart :=
  if s.present then (.returned, { s with present := false })
  else (.threw "FaststartWriter::deleteIntermediateFile(): cannot remove the intermediate file", s)

/-- A call that does not touch the intermediate file. -/
def withWriter (s : OpenFaststart) (r : Except Err FaststartWriter) : Ends × OpenFaststart :=
  match r with
  | .ok w => (.returned, { s with w })
  | .error e => (Ends.of (α := Unit) (.error e), s)

/-- One call.  `copyMdatData` (src/writer/faststart_writer.cpp:145-166) closes the `FILE` before it removes the file. -/
def step (s : OpenFaststart) : FaststartCall → Ends × OpenFaststart
  | .writeFtypBox => s.withWriter s.w.writeFtypBox
  | .writeMdatHeader => s.withWriter s.w.writeMdatHeader
  | .writeMoovBox => s.withWriter s.w.writeMoovBox
  | .addMdatData data =>
    if s.isOpen then (.returned, { s with w := s.w.addMdatData data }) else (.undefined "fwrite on a closed FILE", s)
  | .tellCurrentMdatOffset => if s.isOpen then (.returned, s) else (.undefined "ftell on a closed FILE", s)
  | .appendTrakAndUdtaBoxInfo tracks => (Ends.of (s.w.appendKept tracks).1, { s with w := (s.w.appendKept tracks).2 })
  | .appendUdtaBoxInfo data => (.returned, { s with w := { s.w with moov := s.w.moov.map (appendUdtaWith data) } })
  | .getAndUpdateNextTrackID => (.returned, { s with w := s.w.getAndUpdateNextTrackID.2 })
  | .copyMdatData =>
    if s.isOpen then
      match s.w.copyMdatData with
      | .error e => (Ends.of (α := Unit) (.error e), s)
      | .ok w => deleteIntermediateFile { s with w, isOpen := false }
    else (.undefined "fseek on a closed FILE", s)
  | .deleteIntermediateFile => s.deleteIntermediateFile

/-- `s` is what the calls, made one after the other on `s0`, leave; exceptions are caught, and no call was undefined. -/
inductive After (s0 : OpenFaststart) : List FaststartCall → OpenFaststart → Prop
  | start : After s0 [] s0
  | call {h : List FaststartCall} {s : OpenFaststart} {c : FaststartCall} : After s0 h s →
      (∀ what, (s.step c).1 ≠ .undefined what) → After s0 (h ++ [c]) (s.step c).2

end OpenFaststart
/-! ### `appendTrakAndUdtaBoxInfo` several times with the same tracks -/

/-- `n` calls with the same track objects. -/
def FaststartWriter.appendTimes : Nat → FaststartWriter → List Track → Except Err (FaststartWriter × List Track)
  | 0, w, tracks => .ok (w, tracks)
  | n + 1, w, tracks =>
    match w.appendTrakAndUdtaBoxInfo tracks with
    | .error e => .error e
    | .ok (w, tracks) => appendTimes n w tracks

/-- The end of a program as in `FaststartWriter.finish` (example/mp4-muxer.cpp:320-323), with `n` calls of `appendTrakAndUdtaBoxInfo`. -/
def FaststartWriter.finishTimes (n : Nat) (s : Session FaststartWriter) : Except Err FaststartWriter :=
  match appendTimes n s.writer s.tracks with
  | .error e => .error e
  | .ok (w, _) =>
    match w.writeMoovBox with
    | .error e => .error e
    | .ok w =>
      match w.writeMdatHeader with
      | .error e => .error e
      | .ok w => w.copyMdatData

/-- `n` calls on a `SimpleWriter`. -/
def SimpleWriter.appendTimes : Nat → SimpleWriter → List Track → SimpleWriter × List Track
  | 0, w, tracks => (w, tracks)
  | n + 1, w, tracks => appendTimes n (w.appendTrakAndUdtaBoxInfo tracks).1 (w.appendTrakAndUdtaBoxInfo tracks).2

end Mp4
