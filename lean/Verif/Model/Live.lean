import Verif.Model.Reader

/-! # `SimpleReader` on a stream that has changed or cannot be read everywhere

`Model/Reader.lean` reads a stream whose size and content are the same as when the reader was constructed and whose bytes can all be read.
Here the size taken by the constructor may differ from the size when `read` is called (a file that another program has cut or extended in
between), and bytes of the stream may be unreadable (a defective disk, a lost connection).

The header and the payload of a box are copied with `std::copy_n` from a `std::istreambuf_iterator`.  When the stream buffer has no byte to
give, the iterator becomes the end-of-stream iterator, and dereferencing that is undefined; the state of the `istream` is not touched and
not looked at. -/

namespace Mp4

/-- A reader, the size its constructor found, and the positions that can be read; `sr.data` is the content when `read` is called. -/
structure LiveReader where
  sr : SimpleReader
  total : Nat
  readable : Nat → Bool

namespace LiveReader

/-- Can `copy_n` read `n` bytes from position `p`? -/
def canRead (lr : LiveReader) (p n : Nat) : Bool :=
  decide (p + n ≤ lr.sr.data.length) && (List.range n).all fun k => lr.readable (p + k)

/-- `read_box_header` (src/box_header.cpp:18-67): the first 8 bytes are read after the first check, 8 more for a large size. -/
def readHeader (lr : LiveReader) (pos : Nat) : Except Err BoxHeader :=
  if sub64 lr.sr.data.length pos < SMALL_HEADER_SIZE then .error (.exc "read_box_header(): stream has not enough data (1)")
  else if lr.canRead pos 8 = false then .error (.ub "copy_n past the end of the stream")
  else
    match read_box_header ⟨lr.sr.data, pos⟩ with
    | .error e => .error e
    | .ok h => if lr.canRead pos h.headerSize = false then .error (.ub "copy_n past the end of the stream") else .ok h

/-- `SimpleReader::readBox` between the reading of the header and the loop over the children (src/reader/reader.cpp:49-76).  The check
against the size found by the constructor comes first, then the payload is copied; what follows is as in `SimpleReader.readContent`, whose own
check of the size passes when the payload can be read. -/
def readContent (lr : LiveReader) (wave : Bool) (header : BoxHeader) : Except Err (Box × Nat) :=
  if header.getDataSize > sub64 (sub64 lr.total header.offset) header.headerSize then
    .error (.exc "corrupt file? box data size is greater than remaining_size")
  else if lr.canRead (header.offset + header.headerSize) header.getDataSize = false then
    .error (.ub "copy_n past the end of the stream")
  else lr.sr.readContent wave header

/-- The body of `SimpleReader::readBox` (src/reader/reader.cpp:47-82), as `SimpleReader.readBoxBody`. -/
def readBoxBody (lr : LiveReader) (self : List BoxType → Bool → Nat → Option (Run (Nat × Tree × Nat))) (fuel : Nat)
    (path : List BoxType) (wave : Bool) (pos : Nat) : Option (Run (Nat × Tree × Nat)) :=
  SimpleReader.onHeader (lr.readHeader pos) fun header =>
    match lr.readContent wave header with
    | .error e => some ⟨[header], .error e⟩
    | .ok (box, rbytes) =>
      match SimpleReader.readLoop (self (path ++ [box.type]) (box.type = fourcc "wave")) header.getDataSize fuel rbytes
          (header.offset + header.headerSize + rbytes) with
      | none => none
      | some ⟨vs, .error e⟩ => some ⟨header :: vs, .error e⟩
      | some ⟨vs, .ok (leafs, pos')⟩ =>
        some ⟨header :: vs, .ok (header.size, .node box (path ++ [box.type]) leafs, pos')⟩

/-- `SimpleReader::readBox` (src/reader/reader.cpp:47-82). -/
def readBox (lr : LiveReader) : Nat → List BoxType → Bool → Nat → Option (Run (Nat × Tree × Nat))
  | 0 => fun _ _ _ => none
  | fuel + 1 => fun path wave pos => lr.readBoxBody (readBox lr fuel) fuel path wave pos

/-- `SimpleReader::read` (src/reader/reader.cpp:37-45): the loop runs up to the size that the constructor found. -/
def read (lr : LiveReader) : Option (Run (List Tree)) :=
  match SimpleReader.readLoop (lr.readBox (lr.sr.data.length + 2) [] false) lr.total (lr.sr.data.length + 2) 0 0 with
  | none => none
  | some ⟨vs, .error e⟩ => some ⟨vs, .error e⟩
  | some ⟨vs, .ok (ts, _)⟩ => some ⟨vs, .ok ts⟩

end LiveReader
end Mp4
