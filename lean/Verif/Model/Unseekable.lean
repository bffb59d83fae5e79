import Verif.Model.Live

/-! # `SimpleReader` on a stream whose position cannot be set or asked for

The constructor of `SimpleReader`, `read_box_header`, `BoxHeader::seekToData` and `readBox` call `seekg` and `tellg` of the input stream.
A `seekg` that fails sets `failbit`, which stays; on a stream with `failbit`, `seekg` does nothing and `tellg` returns -1.  A
`tellg` whose stream buffer cannot tell the position returns -1 and leaves the state of the stream as it is.  The constructor looks at neither.
A stream that could not be opened has `failbit` from the beginning: the first `seekg` fails; so it is with a pipe.
The bytes are read from the stream buffer and are not affected. -/

namespace Mp4

/-- `seek t` and `tell t`: does call number `t` of `seekg` or `tellg` work?  (Both are counted together.) -/
structure PosReader where
  sr : SimpleReader
  seek : Nat → Bool
  tell : Nat → Bool

namespace PosReader

/-- What the constructor takes for the size of the stream (src/reader/reader.cpp:25-26): call 0 is `seekg`, call 1 `tellg`; -1
becomes `2^64 - 1`. -/
def total (pr : PosReader) : Nat := if pr.seek 0 && pr.tell 1 then pr.sr.data.length else 2 ^ 64 - 1

/-- After the constructor the stream has `failbit` (src/reader/reader.cpp:25-27): call 2 is the second `seekg`. -/
def failed (pr : PosReader) : Bool := !(pr.seek 0 && pr.seek 2)

/-- The reader that has found the same size, on a stream whose bytes can all be read. -/
def live (pr : PosReader) : LiveReader := ⟨pr.sr, pr.total, fun _ => true⟩

/-- `read_box_header` (src/box_header.cpp:18-67) on a stream without `failbit`, `t` calls of `seekg` and `tellg` after the
beginning; also the number of calls after it.  Position -1 cannot be set. -/
def readHeader (pr : PosReader) (t pos : Nat) : Except Err (BoxHeader × Nat) :=
  let offset := if pr.tell t then pos else 2 ^ 64 - 1
  if pr.seek (t + 1) = false then .error (.exc "read_box_header(): istream::seekg() failed")
  else
    let offset_eof := if pr.tell (t + 2) then pr.sr.data.length else 2 ^ 64 - 1
    if sub64 offset_eof offset < SMALL_HEADER_SIZE then
      .error (.exc "read_box_header(): stream has not enough data (1)")
    else if pr.seek (t + 3) = false ∨ pr.tell t = false then .error (.exc "read_box_header(): istream::seekg() failed")
    else if pr.sr.data.length < offset then .error (.ub "copy_n past the end of the stream")
    else
      match pr.sr.data.drop offset with
      | a :: b :: c :: d :: t0 :: t1 :: t2 :: t3 :: more =>
        let size := (be_to_uint32 a b c d).toNat
        let type : BoxType := ⟨t0, t1, t2, t3⟩
        if size = 0 then
          .ok ({ offset := offset, size := sub64 offset_eof offset, headerSize := SMALL_HEADER_SIZE, type := type,
                 extendToEof := true }, t + 4)
        else if size = 1 then
          if sub64 offset_eof offset < LARGE_HEADER_SIZE then
            .error (.exc "read_box_header(): stream has not enough data (2)")
          else if pr.seek (t + 4) = false then .error (.exc "read_box_header(): istream::seekg() failed")
          else
            match more with
            | a :: b :: c :: d :: e :: f :: g :: h :: _ =>
              .ok ({ offset := offset, size := (be_to_uint64 a b c d e f g h).toNat, headerSize := LARGE_HEADER_SIZE,
                     type := type, extendToEof := false }, t + 5)
            | _ => .error (.ub "copy_n past the end of the stream")
        else .ok ({ offset := offset, size := size, headerSize := SMALL_HEADER_SIZE, type := type, extendToEof := false }, t + 4)
      | _ => .error (.ub "copy_n past the end of the stream")

/-- `SimpleReader::readBox` between the reading of the header and the loop over the children (src/reader/reader.cpp:49-76): `seekToData`
(src/box_header.cpp:114-119) in front, `seekg` to the end of what was read behind. -/
def readContent (pr : PosReader) (t : Nat) (wave : Bool) (header : BoxHeader) : Except Err (Box × Nat) :=
  if pr.seek t = false then .error (.exc "BoxHeader::seekToData() istream::seekg() failed")
  else
    match pr.live.readContent wave header with
    | .error e => .error e
    | .ok x => if pr.seek (t + 1) = false then .error (.exc "SimpleReader::readBox(): istream::seekg() failed") else .ok x

/-- The loops around `readBox`, as `SimpleReader.readLoop`; `t` counts the calls of `seekg` and `tellg`. -/
def readLoop (readBox : Nat → Nat → Option (Run ((Nat × Tree × Nat) × Nat))) (limit : Nat) :
    Nat → Nat → Nat → Nat → Option (Run ((List Tree × Nat) × Nat))
  | 0, _, _, _ => none
  | fuel + 1, done, t, pos =>
    if limit > done then
      match readBox t pos with
      | none => none
      | some ⟨vs, .error e⟩ => some ⟨vs, .error e⟩
      | some ⟨vs, .ok ((size, tree, pos'), t')⟩ =>
        match readLoop readBox limit fuel (u64 (done + size)) t' pos' with
        | none => none
        | some ⟨ws, .error e⟩ => some ⟨vs ++ ws, .error e⟩
        | some ⟨ws, .ok ((ts, pos''), t'')⟩ => some ⟨vs ++ ws, .ok ((tree :: ts, pos''), t'')⟩
    else some ⟨[], .ok (([], pos), t)⟩

/-- The body of `SimpleReader::readBox` (src/reader/reader.cpp:47-82), as `SimpleReader.readBoxBody`. -/
def readBoxBody (pr : PosReader) (self : List BoxType → Bool → Nat → Nat → Option (Run ((Nat × Tree × Nat) × Nat))) (fuel : Nat)
    (path : List BoxType) (wave : Bool) (t pos : Nat) : Option (Run ((Nat × Tree × Nat) × Nat)) :=
  match pr.readHeader t pos with
  | .error e => some ⟨[], .error e⟩
  | .ok (header, t1) =>
    match pr.readContent t1 wave header with
    | .error e => some ⟨[header], .error e⟩
    | .ok (box, rbytes) =>
      match readLoop (self (path ++ [box.type]) (box.type = fourcc "wave")) header.getDataSize fuel rbytes (t1 + 2)
          (header.offset + header.headerSize + rbytes) with
      | none => none
      | some ⟨vs, .error e⟩ => some ⟨header :: vs, .error e⟩
      | some ⟨vs, .ok ((leafs, pos'), t')⟩ =>
        some ⟨header :: vs, .ok ((header.size, .node box (path ++ [box.type]) leafs, pos'), t')⟩

/-- `SimpleReader::readBox` (src/reader/reader.cpp:47-82). -/
def readBox (pr : PosReader) : Nat → List BoxType → Bool → Nat → Nat → Option (Run ((Nat × Tree × Nat) × Nat))
  | 0 => fun _ _ _ _ => none
  | fuel + 1 => fun path wave t pos => pr.readBoxBody (readBox pr fuel) fuel path wave t pos

/-- The constructor and `SimpleReader::read` (src/reader/reader.cpp:23-45).  When the stream has `failbit`, the first call of
`read_box_header` throws after its `tellg`. -/
def read (pr : PosReader) : Option (Run (List Tree)) :=
  if pr.total > 0 ∧ pr.failed = true then some ⟨[], .error (.exc "read_box_header(): istream::tellg() failed")⟩
  else
    match readLoop (pr.readBox (pr.sr.data.length + 2) [] false) pr.total (pr.sr.data.length + 2) 0 3 0 with
    | none => none
    | some ⟨vs, .error e⟩ => some ⟨vs, .error e⟩
    | some ⟨vs, .ok ((ts, _), _)⟩ => some ⟨vs, .ok ts⟩

end PosReader
end Mp4
