import Verif.Model.Header
import Verif.Model.Tree

/-! # Positioning a stream at a box (src/box_header.cpp:114-119, 145-150, src/box.cpp:80-92) -/

namespace Mp4

/-- `is.seekg(static_cast<std::streamoff>(target), std::ios_base::beg)` on an open stream in good state: a target of 2^63 or more is negative as
`streamoff` and fails; one behind the end fails on a string stream and succeeds on a file stream (`file`). -/
def IStream.seekg (is : IStream) (file : Bool) (target : Nat) (what : String) : Except Err IStream :=
  if target < 2 ^ 63 ∧ (file = true ∨ target ≤ is.data.length) then .ok { is with pos := target }
  else .error (.exc (what ++ ": istream::seekg() failed"))

/-- `BoxHeader::seekToData` (src/box_header.cpp:114-119). -/
def BoxHeader.seekToData (h : BoxHeader) (file : Bool) (is : IStream) : Except Err IStream :=
  is.seekg file (u64 (h.offset + h.headerSize)) "BoxHeader::seekToData()"

/-- `BoxHeader::seekToEnd` (src/box_header.cpp:145-150). -/
def BoxHeader.seekToEnd (h : BoxHeader) (file : Bool) (is : IStream) : Except Err IStream :=
  is.seekg file (u64 (h.offset + h.size)) "BoxHeader::seekToEnd()"

/-- `Box::seekToData` (src/box.cpp:80-85); without a header a null pointer is dereferenced. -/
def Box.seekToData (b : Box) (file : Bool) (is : IStream) : Except Err IStream :=
  match b.header with
  | none => .error (.ub "null pointer dereferenced: m_header")
  | some h => is.seekg file (u64 (h.offset + h.headerSize)) "Box::seekToData()"

/-- `Box::seekToEnd` (src/box.cpp:87-92). -/
def Box.seekToEnd (b : Box) (file : Bool) (is : IStream) : Except Err IStream :=
  match b.header with
  | none => .error (.ub "null pointer dereferenced: m_header")
  | some h => is.seekg file (u64 (h.offset + h.size)) "Box::seekToEnd()"

end Mp4
