import Verif.Model.Faults

/-! # The intermediate file of `FaststartWriter`, on a C library and a file system that can fail

`Model/Faults.lean` lets the output stream fail but not the intermediate file.  Here every call on the intermediate file asks an oracle
whether it succeeds, and the state that the object is left in is kept also when the call ends in an exception that the program catches:
the file in the directory, the `FILE`, its content and position, the members and the output stream.

Simplifications: a byte counts as stored in the intermediate file when `fwrite` counts it; a failing `fseek`, `ftell` or `fread` leaves
the position where it was; nobody else touches the file or its name.  `std::filesystem::remove` failing means that it returns `false` or
throws. -/

namespace Mp4

/-- What the C library and the file system do.  The calls on the `FILE` and the file are numbered; `fwrite t` is the number of bytes the
call number `t` can store if it is an `fwrite`, the others say whether call number `t` succeeds if it is such a call. -/
structure Libc where
  mkstemp : Bool
  fdopen : Bool
  fwrite : Nat → Nat
  ftell : Nat → Bool
  fseek : Nat → Bool
  fread : Nat → Bool
  fclose : Nat → Bool
  remove : Nat → Bool

/-- How a call of a member function ends: it returns (`tellCurrentMdatOffset` a number), it throws (the message of `addMdatData` shows the
number `fwrite` returned), or it does what C leaves undefined. -/
inductive Outcome where
  | returned (value : Option (BitVec 64))
  | threw (what : String) (ret : Nat)
  | undefined (what : String)
  deriving DecidableEq, Repr

/-- A `FaststartWriter` with its intermediate file: the number of calls made so far, whether the file is in its directory, whether the
`FILE` is open, and whether the last access to it was a read that did not reach the end of the file (after which C does not allow a
write before a call of `fseek`).  (include/shiguredo/mp4/writer/faststart_writer.hpp:52-55) -/
structure Interm where
  libc : Libc
  clock : Nat := 0
  present : Bool
  isOpen : Bool
  reading : Bool := false
  x : FaultyFaststart

/-- The end of the constructor of `FaststartWriter`: an object, or an exception; `present` tells whether the intermediate file is then in
its directory. -/
inductive Built where
  | object (i : Interm)
  | threw (what : String) (present : Bool)

namespace Interm

/-- `FaststartWriter::FaststartWriter` (src/writer/faststart_writer.cpp:33-47); `x` is what the lines before leave, with an empty
intermediate file. -/
def construct (libc : Libc) (x : FaultyFaststart) : Built :=
  if libc.mkstemp = false then .threw "FaststartWriter::FaststartWriter(): cannot open an intermediate file: mkstemp()" false
  else if libc.fdopen = false then .threw "FaststartWriter::FaststartWriter(): cannot open an intermediate file: fdopen()" true
  else .object { libc, present := true, isOpen := true, x := { x with w := { x.w with mdat := {}, mdat_data_size := 0 } } }

/-- One more call on the `FILE` or the file has been made. -/
def tick (i : Interm) : Interm := { i with clock := i.clock + 1 }

/-- `FaststartWriter::addMdatData` (src/writer/faststart_writer.cpp:94-100). -/
def addMdatData (data : List Byte) (i : Interm) : Outcome × Interm :=
  if i.isOpen = false then (.undefined "fwrite on a closed FILE", i)
  else if i.reading then (.undefined "fwrite directly after fread", i)
  else
    let ret := min (i.libc.fwrite i.clock) data.length
    let w := { i.x.w with mdat := i.x.w.mdat.fwrite (data.take ret) }
    if ret ≠ data.length then
      (.threw "FaststartWriter::addMdatData(): fwrite() failed" ret, { i.tick with x := { i.x with w } })
    else
      (.returned none, { i.tick with x := { i.x with w := { w with mdat_data_size := u64 (w.mdat_data_size + data.length) } } })

/-- `FaststartWriter::tellCurrentMdatOffset` (src/writer/faststart_writer.cpp:106-113). -/
def tellCurrentMdatOffset (i : Interm) : Outcome × Interm :=
  if i.isOpen = false then (.undefined "ftell on a closed FILE", i)
  else if i.libc.ftell i.clock = false then (.threw "FaststartWriter::tellCurrentMdatOffset(): ftell() failed" 0, i.tick)
  else (.returned (some (BitVec.ofNat 64 i.x.w.mdat.pos)), i.tick)

/-- `FaststartWriter::deleteIntermediateFile` (src/writer/faststart_writer.cpp:195-200). -/
def deleteIntermediateFile (i : Interm) : Outcome × Interm :=
  if i.present && i.libc.remove i.clock then (.returned none, { i.tick with present := false })
  else (.threw "FaststartWriter::deleteIntermediateFile(): cannot remove the intermediate file" 0, i.tick)

/-- The loop of `copyMdatData` (src/writer/faststart_writer.cpp:150-158).  The first argument bounds the number of rounds; `none`: the
loop is still running then; `false`: it ended with the exception of line 155. -/
def copyRounds : Nat → Interm → Option (Bool × Interm)
  | 0, _ => none
  | n + 1, i =>
    if i.x.w.mdat.eof then some (true, i)
    else
      let (buffer, f) := if i.libc.fread i.clock then i.x.w.mdat.fread COPY_MDAT_DATA_BUFFER_SIZE else ([], i.x.w.mdat)
      let s := i.x.s.copyOut i.x.dev buffer
      let i := { i.tick with reading := !f.eof, x := { i.x with w := { i.x.w with mdat := f }, s } }
      if s.good then copyRounds n i else some (false, i)

/-- `FaststartWriter::copyMdatData` (src/writer/faststart_writer.cpp:145-166) with a bound on the number of rounds. -/
def copyMdatData (n : Nat) (i : Interm) : Option (Outcome × Interm) :=
  if i.isOpen = false then some (.undefined "fseek on a closed FILE", i)
  else if i.libc.fseek i.clock = false then some (.threw "fseek failed" 0, i.tick)
  else
    match copyRounds n { i.tick with reading := false, x := { i.x with w := { i.x.w with mdat := i.x.w.mdat.rewind } } } with
    | none => none
    | some (false, i) => some (.threw "FaststartWriter::copyMdatData(): copying mdat data failed" 0, i)
    | some (true, i) =>
      let j := { i.tick with isOpen := false }
      if i.libc.fclose i.clock = false then
        some (.threw "FaststartWriter::copyMdatData(): cannot close the intermediate file" 0, j)
      else some j.deleteIntermediateFile

/-- The end of a `FaststartWriter`: its implicit destructor (include/shiguredo/mp4/writer/faststart_writer.hpp:34-65) and `Writer::~Writer`
(src/writer/writer.cpp:14-18) touch neither the `FILE` nor the file. -/
def destroy (i : Interm) : Interm := i

end Interm

/-- A call on the object.  `other`: any other member function, which does not touch the intermediate file. -/
inductive Act where
  | addMdatData (data : List Byte)
  | tellCurrentMdatOffset
  | copyMdatData
  | deleteIntermediateFile
  | other
  deriving DecidableEq, Repr

/-- The call `a` on `i` can end with `o` and leave `j`.  For `other` (src/writer/faststart_writer.cpp:66-92, 115-125, 168-193) anything is
allowed but touching the intermediate file or the number of bytes counted. -/
def Does (a : Act) (i : Interm) (o : Outcome) (j : Interm) : Prop :=
  match a with
  | .addMdatData d => i.addMdatData d = (o, j)
  | .tellCurrentMdatOffset => i.tellCurrentMdatOffset = (o, j)
  | .deleteIntermediateFile => i.deleteIntermediateFile = (o, j)
  | .copyMdatData => ∃ n, i.copyMdatData n = some (o, j)
  | .other => (∀ what, o ≠ .undefined what) ∧
      ∃ x : FaultyFaststart, j = { i with x } ∧ x.dev = i.x.dev ∧ x.w.mdat = i.x.w.mdat ∧ x.w.mdat_data_size = i.x.w.mdat_data_size

/-- A history: calls and how they ended (exceptions are caught by the program), none of them undefined. -/
inductive History (i : Interm) : List (Act × Outcome) → Interm → Prop
  | start : History i [] i
  | call {h : List (Act × Outcome)} {j k : Interm} {a : Act} {o : Outcome} : History i h j → Does a j o k →
      (∀ what, o ≠ .undefined what) → History i (h ++ [(a, o)]) k

end Mp4
