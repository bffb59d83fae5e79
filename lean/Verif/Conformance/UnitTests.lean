import Verif.Model.Calendar
import Verif.Model.H264
import Verif.Model.Track
import Verif.Model.Header

/-!
# The model passes the unit tests of the repository

The assertions of test/box_header.cpp, test/box_type.cpp, test/bitio, test/endian, test/time and test/track with the inputs and
expected values that stand there, evaluated in the model.  (test/box_types.cpp is in BoxTypes1 to BoxTypes4, test/box_info.cpp in UnitBoxInfo.)
They are tests of the model, not proofs about it.
-/

namespace Mp4.UnitTests

/-! ### test/endian/endian.cpp:16-58 -/

example : uint32_to_be 0x0 = [0x00, 0x00, 0x00, 0x00] ∧ be_to_uint32 0x00 0x00 0x00 0x00 = 0x0 ∧ be_to_uint32_arr [0x00, 0x00, 0x00, 0x00] = some 0x0 := by decide
example : uint32_to_be 0x12345678 = [0x12, 0x34, 0x56, 0x78] ∧ be_to_uint32 0x12 0x34 0x56 0x78 = 0x12345678 ∧ be_to_uint32_arr [0x12, 0x34, 0x56, 0x78] = some 0x12345678 := by decide
example : uint32_to_be 0x123456 = [0x00, 0x12, 0x34, 0x56] ∧ be_to_uint32 0x00 0x12 0x34 0x56 = 0x123456 ∧ be_to_uint32_arr [0x00, 0x12, 0x34, 0x56] = some 0x123456 := by decide
example : uint32_to_be 0xffffffff = [0xff, 0xff, 0xff, 0xff] ∧ be_to_uint32 0xff 0xff 0xff 0xff = 0xffffffff ∧ be_to_uint32_arr [0xff, 0xff, 0xff, 0xff] = some 0xffffffff := by decide
example : uint64_to_be 0x0 = [0x00, 0x00, 0x00, 0x00, 0x00, 0x00, 0x00, 0x00] ∧ be_to_uint64 0x00 0x00 0x00 0x00 0x00 0x00 0x00 0x00 = 0x0 ∧ be_to_uint64_arr [0x00, 0x00, 0x00, 0x00, 0x00, 0x00, 0x00, 0x00] = some 0x0 := by decide
example : uint64_to_be 0x123456789abcdef0 = [0x12, 0x34, 0x56, 0x78, 0x9a, 0xbc, 0xde, 0xf0] ∧ be_to_uint64 0x12 0x34 0x56 0x78 0x9a 0xbc 0xde 0xf0 = 0x123456789abcdef0 ∧ be_to_uint64_arr [0x12, 0x34, 0x56, 0x78, 0x9a, 0xbc, 0xde, 0xf0] = some 0x123456789abcdef0 := by decide
example : uint64_to_be 0x123456789abcdef = [0x01, 0x23, 0x45, 0x67, 0x89, 0xab, 0xcd, 0xef] ∧ be_to_uint64 0x01 0x23 0x45 0x67 0x89 0xab 0xcd 0xef = 0x123456789abcdef ∧ be_to_uint64_arr [0x01, 0x23, 0x45, 0x67, 0x89, 0xab, 0xcd, 0xef] = some 0x123456789abcdef := by decide
example : uint64_to_be 0x123456789abcde = [0x00, 0x12, 0x34, 0x56, 0x78, 0x9a, 0xbc, 0xde] ∧ be_to_uint64 0x00 0x12 0x34 0x56 0x78 0x9a 0xbc 0xde = 0x123456789abcde ∧ be_to_uint64_arr [0x00, 0x12, 0x34, 0x56, 0x78, 0x9a, 0xbc, 0xde] = some 0x123456789abcde := by decide
example : uint64_to_be 0xffffffffffffffff = [0xff, 0xff, 0xff, 0xff, 0xff, 0xff, 0xff, 0xff] ∧ be_to_uint64 0xff 0xff 0xff 0xff 0xff 0xff 0xff 0xff = 0xffffffffffffffff ∧ be_to_uint64_arr [0xff, 0xff, 0xff, 0xff, 0xff, 0xff, 0xff, 0xff] = some 0xffffffffffffffff := by decide

/-! ### test/time/time.cpp:16-45 -/

def timeIs (t e : BitVec 64) (s : List Byte) : Bool :=
  decide (convert_to_epoch_19040101 t = e) && (match timeText e with | .ok l => decide (l = s) | .error _ => false)

example : timeIs 0x0 2082844800 b!"1970-01-01T00:00:00Z" = true := by decide +kernel
example : timeIs 0x7fffffff 4230328447 b!"2038-01-19T03:14:07Z" = true := by decide +kernel
example : timeIs 0xffffffff 6377812095 b!"2106-02-07T06:28:15Z" = true := by decide +kernel
example : timeIs 0x100000000 6377812096 b!"0000-00-00T00:00:00Z" = true := by decide +kernel

/-! ### test/track/h264.cpp:17-91 -/

def nalIs (data : List Byte) (start : Nat) (n : NalUnit) : Bool :=
  match find_next_nal_unit data start with | .ok m => decide (m = n) | .error _ => false

/-- `std::runtime_error` -/
def nalThrows (data : List Byte) (start : Nat) : Bool :=
  match find_next_nal_unit data start with | .error (.exc _) => true | _ => false

example : nalIs [0, 0, 0, 1, 67, 1, 2] 0 ⟨4, 0, 7, 67⟩ = true := by decide +kernel
example : nalIs [0, 0, 0, 1, 68, 1, 2, 3] 0 ⟨4, 0, 8, 68⟩ = true := by decide +kernel
example : nalIs [0, 0, 0, 1, 68, 1, 2, 3, 4, 0, 0, 1, 65, 1, 2, 3] 0 ⟨4, 0, 9, 68⟩ = true := by decide +kernel
example : nalIs [0, 0, 0, 1, 68, 1, 2, 3, 4, 0, 0, 1, 65, 1, 2, 3] 9 ⟨3, 9, 16, 65⟩ = true := by decide +kernel
example : nalIs [0, 0, 1, 61, 1, 2, 3] 0 ⟨3, 0, 7, 61⟩ = true := by decide +kernel
example : nalThrows [0, 0, 0, 1, 68, 1, 2, 3] 2 = true := by decide +kernel
example : nalThrows [0, 0, 0, 1, 68, 1, 2, 3] 3 = true := by decide +kernel
example : nalThrows [0, 0, 0, 1, 68, 1, 2, 3] 4 = true := by decide +kernel
example : nalThrows [0, 0, 0, 1, 68, 1, 2, 3] 10 = true := by decide +kernel
example : nalThrows [0, 0, 0, 1, 68, 1, 2, 3, 4, 0, 0, 1, 65, 1, 2, 3] 8 = true := by decide +kernel
example : nalThrows [0, 0, 0, 1, 68, 1, 2, 3, 4, 0, 0, 1, 65, 1, 2, 3] 10 = true := by decide +kernel
example : nalThrows [0, 0, 1, 61, 1, 2, 3] 1 = true := by decide +kernel

/-! ### test/track/track.cpp:20-162 -/

example : make_stts_entries [10, 10, 10] = [⟨3, 10⟩] := by decide
example : make_stts_entries [10, 5, 10] = [⟨1, 10⟩, ⟨1, 5⟩, ⟨1, 10⟩] := by decide
example : make_stts_entries [10, 10, 5] = [⟨2, 10⟩, ⟨1, 5⟩] := by decide
example : make_stts_entries [] = [] := by decide
example : make_stsc_entries [{ number_of_samples := 10 }, { number_of_samples := 10 }] = [⟨1, 10, 1⟩] := by decide
example : make_stsc_entries [{ number_of_samples := 10 }, { number_of_samples := 5 }, { number_of_samples := 10 }] = [⟨1, 10, 1⟩, ⟨2, 5, 1⟩, ⟨3, 10, 1⟩] := by decide
example : make_stsc_entries [{ number_of_samples := 10 }, { number_of_samples := 10 }, { number_of_samples := 5 }] = [⟨1, 10, 1⟩, ⟨3, 5, 1⟩] := by decide
example : make_stsc_entries [] = [] := by decide

def stcoIs (offsets : List (BitVec 64)) (l : List (BitVec 32)) : Bool :=
  match make_offset_box (offsets.map fun o => { offset := o }) with | ⟨_, .stco b, _⟩ => decide (b = ⟨⟨0, 0, 0, 0⟩, l⟩) | _ => false

def co64Is (offsets : List (BitVec 64)) (l : List (BitVec 64)) : Bool :=
  match make_offset_box (offsets.map fun o => { offset := o }) with | ⟨_, .co64 b, _⟩ => decide (b = ⟨⟨0, 0, 0, 0⟩, l⟩) | _ => false

example : stcoIs [] [] = true := by decide +kernel
example : stcoIs [10, 15, 20] [10, 15, 20] = true := by decide +kernel
example : stcoIs [10, 15, 0xffffffff] [10, 15, 0xffffffff] = true := by decide +kernel
example : co64Is [10, 15, 0x100000000] [10, 15, 0x100000000] = true := by decide +kernel

/-! ### test/box_type.cpp:10-18 -/

example : BoxType.toText ⟨0x31, 0x32, 0x33, 0x34⟩ = b!"1234" := by decide +kernel
example : BoxType.toText ⟨0x61, 0x62, 0x63, 0x64⟩ = b!"abcd" := by decide +kernel
example : BoxType.toText ⟨0x78, 0x78, 0x20, 0x78⟩ = b!"xx x" := by decide +kernel
example : BoxType.toText ⟨0x78, 0x78, 0x2d, 0x78⟩ = b!"xx-x" := by decide +kernel
example : BoxType.toText ⟨0x78, 0x78, 0xa9, 0x78⟩ = b!"xx©x" := by decide +kernel
example : BoxType.toText ⟨0x78, 0x78, 0xab, 0x78⟩ = b!"0x7878ab78" := by decide +kernel

/-! ### test/box_header.cpp:23-77 -/

def test : BoxType := ⟨0x74, 0x65, 0x73, 0x74⟩

def headerIs (buf : List Byte) (seek : Nat) (h : BoxHeader) : Bool :=
  match read_box_header ⟨buf, seek⟩ with | .ok g => decide (g = h) | .error _ => false

example : headerIs [0x00, 0x01, 0x23, 0x45, 0x74, 0x65, 0x73, 0x74] 0 { offset := 0, size := 0x12345, headerSize := 8, type := test } = true := by
  decide +kernel
example : headerIs [0x00, 0x00, 0x00, 0x01, 0x23, 0x45, 0x74, 0x65, 0x73, 0x74] 2
    { offset := 2, size := 0x12345, headerSize := 8, type := test } = true := by decide +kernel
example : headerIs [0x00, 0x00, 0x00, 0x01, 0x74, 0x65, 0x73, 0x74, 0x01, 0x23, 0x45, 0x67, 0x89, 0xab, 0xcd, 0xef] 0
    { offset := 0, size := 0x123456789abcdef, headerSize := 16, type := test } = true := by decide +kernel
example : headerIs ([0x00, 0x00, 0x00, 0x00, 0x74, 0x65, 0x73, 0x74] ++ List.replicate 12 0) 0
    { offset := 0, size := 20, headerSize := 8, type := test, extendToEof := true } = true := by decide +kernel
/-- `std::invalid_argument` -/
example : (match read_box_header ⟨[0x00, 0x01, 0x23, 0x45, 0x74, 0x65, 0x73], 0⟩ with | .error (.exc _) => true | _ => false) = true := by decide +kernel

/-! ### test/box_header.cpp:87-140 -/

def writeIs (pre : List Byte) (h expected : BoxHeader) (bytes : List Byte) : Bool :=
  let (_, h', os) := h.write ((⟨[], 0⟩ : OStream).write pre)
  decide (h' = expected) && decide (os.data = bytes)

example : writeIs [] { offset := 0, size := 0x12345, headerSize := 8, type := test } { offset := 0, size := 0x12345, headerSize := 8, type := test }
    [0x00, 0x01, 0x23, 0x45, 0x74, 0x65, 0x73, 0x74] = true := by decide +kernel
example : writeIs [] { offset := 0, size := 0x123456789abc, headerSize := 8, type := test }
    { offset := 0, size := 0x123456789abc + 8, headerSize := 16, type := test }
    [0x00, 0x00, 0x00, 0x01, 0x74, 0x65, 0x73, 0x74, 0x00, 0x00, 0x12, 0x34, 0x56, 0x78, 0x9a, 0xbc] = true := by decide +kernel
example : writeIs [] { offset := 0, size := 0x123, headerSize := 8, type := test, extendToEof := true }
    { offset := 0, size := 0x123, headerSize := 8, type := test, extendToEof := true } [0x00, 0x00, 0x00, 0x00, 0x74, 0x65, 0x73, 0x74] = true := by
  decide +kernel
example : writeIs [0x00, 0x00, 0x00] { offset := 3, size := 0x12345, headerSize := 8, type := test }
    { offset := 3, size := 0x12345, headerSize := 8, type := test } [0x00, 0x00, 0x00, 0x00, 0x01, 0x23, 0x45, 0x74, 0x65, 0x73, 0x74] = true := by
  decide +kernel

/-! ### test/bitio/bitio.cpp:22-60 -/

def pascalIs (bin str : List Byte) : Bool :=
  match (read_pascal_string (bin.length * 8)).runC (Reader.new ⟨bin, 0⟩) with | .ok ((_, s), _) => decide (s = str) | .error _ => false

example : pascalIs (b!"shiguredo" ++ [0]) b!"shiguredo" = true := by decide +kernel
example : pascalIs [] [] = true := by decide +kernel
example : pascalIs [0] [] = true := by decide +kernel
example : pascalIs ([9] ++ b!"shiguredo") b!"shiguredo" = true := by decide +kernel
example : pascalIs b!" a 1st byte equals to this length" b!"a 1st byte equals to this length" = true := by decide +kernel

/-! ### test/bitio/writer.cpp:12-49 -/

example : (match ((Writer.new ⟨[], 0⟩).writeBits [0xda] 7).writeBits [0x07, 0x63, 0xd5] 17 |>.write [0xa4, 0x6f] with
    | .ok w => decide (((((w.writeBits [0x07, 0x69, 0xe3] 17).writeBit true).writeBit false).writeBits [0xf7] 5).os.data =
        [0xb5, 0x63, 0xd5, 0xa4, 0x6f, 0xb4, 0xf1, 0xd7])
    | .error _ => false) = true := by decide +kernel

/-! ### test/bitio/reader.cpp:16-58 -/

def reader_basic : Except Err Bool := do
  let r := Reader.new ⟨[0xb5, 0x63, 0xd5, 0xa4, 0x6f, 0xb4, 0xf1, 0xd7], 0⟩
  let (d1, r) ← r.readBits 7
  let (d2, r) ← r.readBits 17
  let (d3, r) ← r.read 2
  let (d4, r) ← r.readBits 17
  let (bit1, r) ← r.readBit
  let (bit2, r) ← r.readBit
  let (d5, _) ← r.readBits 5
  pure (decide (d1 = [0x5a] ∧ d2 = [0x01, 0x63, 0xd5] ∧ d3 = [0xa4, 0x6f] ∧ d4 = [0x01, 0x69, 0xe3] ∧ bit1 = true ∧ bit2 = false ∧ d5 = [0x17]))

example : (match reader_basic with | .ok b => b | .error _ => false) = true := by decide +kernel

/-! ### test/bitio/reader.cpp:69-97 -/

def readBitsIs (octet : Byte) (width : Nat) (input : List Byte) (size : Nat) (expected : Option (List Byte)) : Bool :=
  match ({ Reader.new ⟨input, 0⟩ with octet := octet, width := width } : Reader).readBits size, expected with
  | .ok (d, _), some e => decide (d = e)
  | .error .eof, none => true
  | _, _ => false

example : readBitsIs 0 0 [0x6c, 0xa5] 10 (some [0x01, 0xb2]) = true := by decide +kernel
example : readBitsIs 0x6c 3 [0xa5] 10 (some [0x02, 0x52]) = true := by decide +kernel
example : readBitsIs 0 0 [0x6c, 0xa5] 16 (some [0x6c, 0xa5]) = true := by decide +kernel
example : readBitsIs 0 0 [0x6c, 0xa5] 17 none = true := by decide +kernel

/-! ### test/bitio/reader.cpp:100-118 -/

/-- `readBit` and `getOctet`, `n` times. -/
def readBitOctets : Nat → Reader → List (Bool × Byte)
  | 0, _ => []
  | n + 1, r =>
    match r.readBit with
    | .ok (b, r) => (b, r.octet) :: readBitOctets n r
    | .error _ => []

example : readBitOctets 16 (Reader.new ⟨[0x6c, 0xa5], 0⟩) =
    [(false, 0x6c), (true, 0x6c), (true, 0x6c), (false, 0x6c), (true, 0x6c), (true, 0x6c), (false, 0x6c), (false, 0x6c),
     (true, 0xa5), (false, 0xa5), (true, 0xa5), (false, 0xa5), (false, 0xa5), (true, 0xa5), (false, 0xa5), (true, 0xa5)] := by decide +kernel

/-! ### test/bitio/reader.cpp:120-150 -/

def reader_read_invalid_argument : Except Err Bool := do
  let r := Reader.new ⟨[0x6c, 0x82, 0x41, 0x35, 0x71, 0xa4, 0xcd, 0x9f], 0⟩
  let (_, r) ← r.read 2
  let (_, r) ← r.readBits 3
  pure (match r.read 1 with | .error (.exc _) => true | _ => false)

example : (match reader_read_invalid_argument with | .ok b => b | .error _ => false) = true := by decide +kernel

def reader_seek_invalid_argument : Except Err Bool := do
  let r := Reader.new ⟨[0x6c, 0x82, 0x41, 0x35, 0x71, 0xa4, 0xcd, 0x9f], 0⟩
  let (_, r) ← r.seek 2 .cur
  let (_, r) ← r.readBits 3
  let refused := match r.seek 2 .cur with | .error (.exc _) => true | _ => false
  let (_, r) ← r.seek 0 .beg
  let (d, _) ← r.readBits 3
  pure (refused && decide (d = [0x03]))

example : (match reader_seek_invalid_argument with | .ok b => b | .error _ => false) = true := by decide +kernel

end Mp4.UnitTests
