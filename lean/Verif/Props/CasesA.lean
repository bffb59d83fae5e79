import Verif.Props.BitIO
import Verif.Props.Basics
import Verif.Props.Header
import Verif.Props.Tree
import Verif.Props.BoxSizes
import Verif.Props.RoundTripA

/-! # Concrete cases for C01-C20: each theorem applied where all its hypotheses hold

The cases that stand beside the theorems in `Props/BitIO.lean` … `Props/RoundTripA.lean` are not repeated here. -/

namespace Mp4

/-! ### C01-C06 -/

/-- Three fields of 3, 12 and 1 bits, read back in fields of 4, 4 and 8 bits. -/
example := C01_bit_fifo [([0x5#8], 3), ([0x5#8, 0xE6#8], 12), ([0x1#8], 1)]
  [[true, false, true, false], [true, false, true, true], [true, true, false, false, true, true, false, true]]
  (by decide) (by decide) (by decide)

/-- Fields of 3 and 2 bits: the last byte is not complete. -/
example := C01_writer_any ⟨[], 0⟩ [([0x5#8], 3), ([0x2#8], 2)] (by decide)

example : RoundTrip (write_uint (0xABC#12)) (read_uint 12) (0xABC#12) := C02_uint_full 12 _ (by decide) (by decide)

example : (write_uint (5#16) 40).res = .error (.ub "shift exceeds type width") ∧ (write_uint (5#16) 40).out = [] :=
  C02_uint_ub 16 40 5#16 (by decide)

example : (read_uint 16 9).run [] [true, false, true] = .error .eof := (C02_uint_errors 16 9 [] [true, false, true]).2 (by decide)

example : RoundTrip (write_int (-3#16)) (read_int 16) (-3#16) := C03_int_full 16 _ (by decide) (by decide)

example : (write_int (200#16) 8).out = [false, true, false, false, true, false, false, false] := by
  rw [C03_int_out_of_range 16 8 200#16 (by decide) (by decide)]; decide

example : RoundTrip (write_uvarint (0x0ABCDEF#32)) (read_uvarint 32) (0x0ABCDEF#32) :=
  (C04_uvarint_round_trip 32 0x0ABCDEF#32 (by decide) (by decide) (by decide)).1

example : RoundTrip (write_string [0x61, 0x62]) (read_string 80) [0x61, 0x62] := (C05_string_round_trip _ (by decide) 80 (by decide)).1

example (rest : List Bool) : (read_string 16).run [] (bytesBits [0x61, 0x62] ++ rest) = .ok ((16, [0x61, 0x62]), rest) :=
  C05_string_budget [0x61, 0x62] (by decide) [] rest

/-- A string with a NUL inside reads back cut off. -/
example (rest : List Bool) : (read_string 100).run [] ((write_string [0x61, 0, 0x62]).out ++ rest) =
    .ok ((16, [0x61]), bytesBits [0x62, 0] ++ rest) := C05_string_nul [0x61] [0x62] (by decide) 100 (by decide) [] rest

example : RoundTrip (write_pascal_string [0x61, 0x62]) (read_pascal_string 24) [0x61, 0x62] :=
  C06_pascal_round_trip [0x61, 0x62] (by decide) (by decide)

example : (write_pascal_string (List.replicate 256 0x61)).out = [] := (C06_pascal_too_long _ (by rw [List.length_replicate]; decide)).2

example : (read_pascal_string 24).run [9, 0x61, 0x62, 0] (bytesBits ([9, 0x61, 0x62, 0] : List Byte).tail) =
    (read_string 24).run [9, 0x61, 0x62, 0] (bytesBits ([9, 0x61, 0x62, 0] : List Byte).tail) :=
  C06_pascal_fallback [9, 0x61, 0x62, 0] 1 3 (by decide) 0x61 rfl (by decide)

/-! ### C08-C15 -/

example : (encode_language ⟨0x6a, 0x70, 0x6e⟩).toNat < 2 ^ 15 :=
  (C08_language_round_trip ⟨0x6a, 0x70, 0x6e⟩ (by decide) (by decide) (by decide)).2

example : encode_language (decode_language 0x55C4) = 0x55C4 := C08_language_onto _ (by decide)

/-- Flags 0x701: adding 0x20001 sets bit 17 and keeps bit 0. -/
example : ((⟨0, 0, 0x07, 0x01⟩ : FullBox).addFlag 0x20001).getFlags.getLsbD 17 = true := by
  rw [C09_flags_add _ _ 17 (by decide)]; decide

example : ((⟨0, 0, 0x05, 0x07⟩ : FullBox).removeFlag 0x401).getFlags.getLsbD 10 = false := by
  rw [C09_flags_remove_set ⟨0, 0, 0x05, 0x07⟩ 0x401 (by decide) 10 (by decide)]; decide

/-- A header with a 64-bit size, written at offset 24 of a file of 24 bytes. -/
example := C10_header_round_trip ⟨24, 5000000016, 16, fourcc "mdat", false⟩ ⟨List.replicate 24 7, 24⟩
  (Nat.lt_of_le_of_lt (m := 100) (by decide +kernel) (by decide))
  (by rw [show (BoxHeader.write ⟨24, 5000000016, 16, fourcc "mdat", false⟩ ⟨List.replicate 24 7, 24⟩).2.2.data.length = 40 by
        decide +kernel]; simp [BoxHeader.Valid])

example := C11_header_size_choice ⟨0, 8, 8, fourcc "mdat", false⟩ 24 (2 ^ 32 - 8) ⟨[], 0⟩ (by decide) rfl

/-- A tree with a stale 16-byte header is laid out again. -/
example := C12_sizes (.node ⟨fourcc "moov", .empty, some ⟨3, 77, 16, fourcc "moov", false⟩⟩ [] [.node
    ⟨fourcc "free", .opaq ⟨[1, 2, 3, 4, 5]⟩, none⟩ [] []]) 100 (by
  refine ⟨?_, ⟨?_, trivial⟩, trivial⟩
  · simp [Box.OwnHeader]
  · simp [Box.OwnHeader]) (by decide +kernel)

/-- `stss` with one entry: 12 bytes. -/
example : (toBytes (BoxData.stss ⟨⟨0, 0, 0, 0⟩, [1#32]⟩).writeData.out).length = 12 :=
  (C14_whole_bytes (.stss ⟨⟨0, 0, 0, 0⟩, [1#32]⟩) 96 (by decide +kernel)).2

example : (BoxData.mdhd ⟨⟨0, 0, 0, 0⟩, 1, 2, 1000, 5000, false, ⟨0x6a, 0x70, 0x6e⟩, 0⟩).writeData.out =
    Layout.box (.mdhd ⟨⟨0, 0, 0, 0⟩, 1, 2, 1000, 5000, false, ⟨0x6a, 0x70, 0x6e⟩, 0⟩) :=
  C15_layout _ 192 (by decide +kernel) (by
    intro m hm; cases hm; simp only [LangOk]; decide)

/-! ### C17: version 0 with small times, version 1 with large ones -/

def caseMvhd (version : Byte) (t : BitVec 64) : Mvhd :=
  ⟨⟨version, 0, 0, 0⟩, t, t + 1, 1000, t + 2, 0x10000, 0x100, 0, 0, 0, Vector.replicate 9 5, Vector.replicate 6 0, 3⟩

example : RoundTrip (caseMvhd 0 3000000000).writeData Mvhd.readData (caseMvhd 0 3000000000) := C17_mvhd _ (by decide)
example : RoundTrip (caseMvhd 1 (2 ^ 40)).writeData Mvhd.readData (caseMvhd 1 (2 ^ 40)) := C17_mvhd _ (by decide)

def caseTkhd (version : Byte) (t : BitVec 64) : Tkhd :=
  ⟨⟨version, 0, 0, 3⟩, t, t + 1, 7, 0, t + 2, 0, 0, 1, 2, 0x100, 0, Vector.replicate 9 5, 640, 480⟩

example : RoundTrip (caseTkhd 0 3000000000).writeData Tkhd.readData (caseTkhd 0 3000000000) := C17_tkhd _ (by decide)
example : RoundTrip (caseTkhd 1 (2 ^ 40)).writeData Tkhd.readData (caseTkhd 1 (2 ^ 40)) := C17_tkhd _ (by decide)

def caseMdhd (version : Byte) (t : BitVec 64) : Mdhd :=
  ⟨⟨version, 0, 0, 0⟩, t, t + 1, 48000, t + 2, true, ⟨0x6a, 0x70, 0x6e⟩, 9⟩

example : RoundTrip (caseMdhd 0 3000000000).writeData Mdhd.readData (caseMdhd 0 3000000000) :=
  C17_mdhd _ (by simp only [LangOk, caseMdhd]; decide) (by decide)
example : RoundTrip (caseMdhd 1 (2 ^ 40)).writeData Mdhd.readData (caseMdhd 1 (2 ^ 40)) :=
  C17_mdhd _ (by simp only [LangOk, caseMdhd]; decide) (by decide)

example : RoundTrip (Mehd.writeData ⟨⟨1, 0, 0, 0⟩, 2 ^ 40⟩) Mehd.readData ⟨⟨1, 0, 0, 0⟩, 2 ^ 40⟩ := C17_mehd _ (by decide)
example : RoundTrip (Tfdt.writeData ⟨⟨0, 0, 0, 0⟩, 77⟩) Tfdt.readData ⟨⟨0, 0, 0, 0⟩, 77⟩ := C17_tfdt _ (by decide)

def caseElst : Elst := ⟨⟨0, 0, 0, 0⟩, [⟨5000, -1, 0x10000⟩, ⟨6000, 42, 0x20000⟩]⟩
example : RoundTrip caseElst.writeData Elst.readData caseElst := C17_elst _ (by decide) (by decide)

def caseSidx : Sidx := ⟨⟨0, 0, 0, 0⟩, 1, 1000, 5, 6, 0, [⟨true, 0x7fffffff, 40, true, 7, 0xfffffff⟩, ⟨false, 1, 2, false, 0, 0⟩]⟩
example : RoundTrip caseSidx.writeData Sidx.readData caseSidx := C17_sidx _ (by decide) (by decide) (by decide)

/-! ### C19, C54, C20 -/

example : RoundTrip (Sbgp.writeData ⟨⟨1, 0, 0, 0⟩, ⟨0x72, 0x6f, 0x6c, 0x6c⟩, 9, [⟨3, 1⟩, ⟨2, 0⟩]⟩) (Sbgp.readData 0)
    ⟨⟨1, 0, 0, 0⟩, ⟨0x72, 0x6f, 0x6c, 0x6c⟩, 9, [⟨3, 1⟩, ⟨2, 0⟩]⟩ := C19_sbgp _ 0 (by decide) (by decide)

/-- A constant size and three samples: the number of samples is lost. -/
example : ¬ RoundTrip (Stsz.writeData ⟨⟨0, 0, 0, 0⟩, 10, [10, 10, 10]⟩) Stsz.readData ⟨⟨0, 0, 0, 0⟩, 10, [10, 10, 10]⟩ := by
  rw [C54_count_survives_iff _ (by decide)]; decide

def caseTfhd : Tfhd := ⟨⟨0, 0, 0, 0x09⟩, 2, 0x123456789, 0, 1024, 0, 0⟩
example : caseTfhd.checkFlag 0x1 = true ∧ caseTfhd.checkFlag 0x10 = false ∧
    RoundTrip caseTfhd.writeData (Tfhd.readData ⟨⟨0, 0, 0, 0⟩, 0, 0, 0, 0, 0, 0⟩) caseTfhd :=
  ⟨by decide, by decide, C20_tfhd _ _ (by decide) (by decide) (by decide) (by decide) (by decide)⟩

def caseTrun : Trun := ⟨⟨0, 0, 0x03, 0x01⟩, -24, 0, [⟨1024, 371, 0, 0⟩, ⟨1024, 372, 0, 0⟩]⟩
example : RoundTrip caseTrun.writeData (Trun.readData ⟨⟨0, 0, 0, 0⟩, 0, 0, []⟩) caseTrun :=
  C20_trun _ _ (by decide) (by decide) (by decide) (by decide)

end Mp4
