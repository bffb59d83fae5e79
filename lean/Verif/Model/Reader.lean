import Verif.Model.Tree
import Verif.Model.BoxInfo
import Verif.Spec.File

/-! # `src/reader/reader.cpp` -/

namespace Mp4

/-- A partial execution of `SimpleReader`: the headers read so far, in order, and how it ended. -/
structure Run (α : Type) where
  visits : List BoxHeader
  res : Except Err α

/-- What stays fixed while a `SimpleReader` works.  `file`: the stream is a file stream, on which `seekg` behind the end
succeeds (on a string stream it fails).  `env`: the indeterminate members of the box object constructed for the box at a given
offset.  `map`: `m_box_map`.  `data`: the content of the stream, of `m_total_size` bytes
(src/reader/reader.cpp:23-29). -/
structure SimpleReader where
  file : Bool
  env : Nat → Env
  map : BoxMap Kind := stdBoxMap
  data : List Byte

namespace SimpleReader

/-- Class and type of the object created by `BoxMap::getBoxInstance` (src/box_map.cpp:26-41, src/box/unsupported.cpp:12-18). -/
def classOf (sr : SimpleReader) (t : BoxType) : Kind × BoxType :=
  match sr.map.getBoxInstance t with
  | .unsupported => (.opaq, box_type_unsupported)
  | .known k t => (k, t)

/-- `SimpleReader::readBox` between the reading of the header and the loop over the children
(src/reader/reader.cpp:49-76), for a parent that is a `wave` box when `wave`: the new box and `rbytes`, or the exception.
Simplification: boxes are values here; as objects in memory, also those left behind by an exception, they are in Model/Memory.lean. -/
def readContent (sr : SimpleReader) (wave : Bool) (header : BoxHeader) : Except Err (Box × Nat) :=
  let remaining_size := sub64 (sub64 sr.data.length header.offset) header.headerSize
  if header.getDataSize > remaining_size then
    .error (.exc "corrupt file? box data size is greater than remaining_size")
  else
    let ss := slice sr.data (header.offset + header.headerSize) header.getDataSize
    let k := sr.classOf header.type
    match (BoxData.readData (sr.env header.offset) k.2 wave k.1).runC (Reader.new ⟨ss, 0⟩) with
    | .error e => .error e
    | .ok ((rbits, data), _) =>
      let rbytes := rbits / 8
      if sr.file = false ∧ sr.data.length < header.offset + header.headerSize + rbytes then
        .error (.exc "SimpleReader::readBox(): istream::seekg() failed")
      else .ok (⟨k.2, data, some header⟩, rbytes)

/-- The loops around `readBox`: over the children (src/reader/reader.cpp:78-80) and over the file
(src/reader/reader.cpp:38-41).  `done` is `rbytes` or `size`, `limit` what it is compared with; the number bounds the iterations
(`none`: exceeded). -/
def readLoop (readBox : Nat → Option (Run (Nat × Tree × Nat))) (limit : Nat) :
    Nat → Nat → Nat → Option (Run (List Tree × Nat))
  | 0, _, _ => none
  | fuel + 1, done, pos =>
    if limit > done then
      match readBox pos with
      | none => none
      | some ⟨vs, .error e⟩ => some ⟨vs, .error e⟩
      | some ⟨vs, .ok (size, t, pos')⟩ =>
        match readLoop readBox limit fuel (u64 (done + size)) pos' with
        | none => none
        | some ⟨ws, .error e⟩ => some ⟨vs ++ ws, .error e⟩
        | some ⟨ws, .ok (ts, pos'')⟩ => some ⟨vs ++ ws, .ok (t :: ts, pos'')⟩
    else some ⟨[], .ok ([], pos)⟩

/-- Go on with the header read, or let the exception propagate. -/
def onHeader {α : Type} (h : Except Err BoxHeader) (k : BoxHeader → Option (Run α)) : Option (Run α) :=
  match h with
  | .error e => some ⟨[], .error e⟩
  | .ok header => k header

/-- The body of `SimpleReader::readBox` (src/reader/reader.cpp:47-82) with the stream at `pos`, for a parent with path `path`
that is a `wave` box when `wave`; `self` are the recursive calls. -/
def readBoxBody (sr : SimpleReader) (self : List BoxType → Bool → Nat → Option (Run (Nat × Tree × Nat))) (fuel : Nat)
    (path : List BoxType) (wave : Bool) (pos : Nat) : Option (Run (Nat × Tree × Nat)) :=
  onHeader (read_box_header ⟨sr.data, pos⟩) fun header =>
    match sr.readContent wave header with
    | .error e => some ⟨[header], .error e⟩
    | .ok (box, rbytes) =>
      match readLoop (self (path ++ [box.type]) (box.type = fourcc "wave")) header.getDataSize fuel rbytes
          (header.offset + header.headerSize + rbytes) with
      | none => none
      | some ⟨vs, .error e⟩ => some ⟨header :: vs, .error e⟩
      | some ⟨vs, .ok (leafs, pos')⟩ =>
        some ⟨header :: vs, .ok (header.size, .node box (path ++ [box.type]) leafs, pos')⟩

/-- `SimpleReader::readBox` (src/reader/reader.cpp:47-82).  Result: returned size, the new `BoxInfo` with everything below it,
stream position.  The number bounds the recursion (`none`: exceeded); `C28_terminates` shows that `read` never exceeds
its bound.
Simplification: partial trees left behind by an exception are in Model/Memory.lean only. The depth of the C++ call stack is that of
`readStack` (Spec/Depth.lean). -/
def readBox (sr : SimpleReader) : Nat → List BoxType → Bool → Nat → Option (Run (Nat × Tree × Nat))
  | 0 => fun _ _ _ => none
  | fuel + 1 => fun path wave pos => sr.readBoxBody (readBox sr fuel) fuel path wave pos

/-- `SimpleReader::read` (src/reader/reader.cpp:37-45) up to the printing of the boxes, with a bound on the
recursion. -/
def readWith (sr : SimpleReader) (fuel : Nat) : Option (Run (List Tree)) :=
  match readLoop (sr.readBox fuel [] false) sr.data.length fuel 0 0 with
  | none => none
  | some ⟨vs, .error e⟩ => some ⟨vs, .error e⟩
  | some ⟨vs, .ok (ts, _)⟩ => some ⟨vs, .ok ts⟩

/-- `SimpleReader::read` (src/reader/reader.cpp:37-45) with the stream at `pos`, where an earlier call has left it; also the position it
leaves the stream at.  Simplification: the error state of the stream, which makes a call throw, is not modelled. -/
def readFrom (sr : SimpleReader) (pos : Nat) : Option (Run (List Tree × Nat)) :=
  readLoop (sr.readBox (sr.data.length + 2) [] false) sr.data.length (sr.data.length + 2) 0 pos

/-- `SimpleReader::read`. -/
def read (sr : SimpleReader) : Option (Run (List Tree)) := sr.readWith (sr.data.length + 2)

end SimpleReader
end Mp4
