import Verif.BitIO.BoxTools
import Verif.Model.Boxes.Versioned

/-! # Movie fragment boxes `tfhd`, `tfra`, `trun` -/

namespace Mp4

/-- `Tfhd` (include/shiguredo/mp4/box/tfhd.hpp:47-52). -/
structure Tfhd extends FullBox where
  track_id : BitVec 32
  base_data_offset : BitVec 64
  sample_description_index : BitVec 32
  default_sample_duration : BitVec 32
  default_sample_size : BitVec 32
  default_sample_flags : BitVec 32
  deriving DecidableEq

/-- src/box/tfhd.cpp:58-79; flag values tfhd.hpp:13-17 -/
def Tfhd.writeData (b : Tfhd) : W Nat := do
  let mut wbits ← b.writeVersionAndFlag
  wbits := wbits + (← write_uint b.track_id)
  wbits := wbits + (← W.opt (b.checkFlag 0x1#32) (write_uint b.base_data_offset))
  wbits := wbits + (← W.opt (b.checkFlag 0x2#32) (write_uint b.sample_description_index))
  wbits := wbits + (← W.opt (b.checkFlag 0x8#32) (write_uint b.default_sample_duration))
  wbits := wbits + (← W.opt (b.checkFlag 0x10#32) (write_uint b.default_sample_size))
  wbits := wbits + (← W.opt (b.checkFlag 0x20#32) (write_uint b.default_sample_flags))
  pure wbits

/-- src/box/tfhd.cpp:81-100 -/
def Tfhd.getDataSize (b : Tfhd) : Nat :=
  8 + (if b.checkFlag 0x1#32 then 8 else 0) + (if b.checkFlag 0x2#32 then 4 else 0) +
    (if b.checkFlag 0x8#32 then 4 else 0) + (if b.checkFlag 0x10#32 then 4 else 0) +
    (if b.checkFlag 0x20#32 then 4 else 0)

/-- src/box/tfhd.cpp:102-123.  Fields not present keep what the object held before (`old`; for a fresh object
that is indeterminate: the constructor, tfhd.cpp:21-23, does not set them). -/
def Tfhd.readData (old : Tfhd) : R (Nat × Tfhd) := do
  let (rbits, fb) ← FullBox.readVersionAndFlag
  let (r0, track_id) ← read_uint 32
  let (r1, a) ← R.opt (fb.checkFlag 0x1#32) (read_uint 64) old.base_data_offset
  let (r2, b) ← R.opt (fb.checkFlag 0x2#32) (read_uint 32) old.sample_description_index
  let (r3, c) ← R.opt (fb.checkFlag 0x8#32) (read_uint 32) old.default_sample_duration
  let (r4, d) ← R.opt (fb.checkFlag 0x10#32) (read_uint 32) old.default_sample_size
  let (r5, e) ← R.opt (fb.checkFlag 0x20#32) (read_uint 32) old.default_sample_flags
  pure (rbits + r0 + r1 + r2 + r3 + r4 + r5, ⟨fb, track_id, a, b, c, d, e⟩)

/-- `TfraEntry` (include/shiguredo/mp4/box/tfra.hpp:48-52). -/
structure TfraEntry where
  time : BitVec 64
  moof_offset : BitVec 64
  traf_number : BitVec 32
  trun_number : BitVec 32
  sample_number : BitVec 32
  deriving DecidableEq

/-- `Tfra` (include/shiguredo/mp4/box/tfra.hpp:79-84). -/
structure Tfra extends FullBox where
  track_id : BitVec 32
  reserved : BitVec 32
  length_size_of_traf_num : Byte
  length_size_of_trun_num : Byte
  length_size_of_sample_num : Byte
  entries : List TfraEntry
  deriving DecidableEq

/-- src/box/tfra.cpp:106-120; `width` is `version == 0 ? 32 : 64`, `l0 l1 l2` the three length fields. -/
def TfraEntry.writeData (width : Nat) (l0 l1 l2 : Byte) (e : TfraEntry) : W Nat := do
  let mut wbits := (← write_uint e.time width) + (← write_uint e.moof_offset width)
  wbits := wbits + (← write_uint e.traf_number ((l0.toNat + 1) * 8))
  wbits := wbits + (← write_uint e.trun_number ((l1.toNat + 1) * 8))
  wbits := wbits + (← write_uint e.sample_number ((l2.toNat + 1) * 8))
  pure wbits

/-- src/box/tfra.cpp:122-129 -/
def TfraEntry.getSize (fb : FullBox) (l0 l1 l2 : Byte) : Nat :=
  8 + (if fb.version = 0#8 then 0 else 8) + (l0.toNat + 1) + (l1.toNat + 1) + (l2.toNat + 1)

/-- src/box/tfra.cpp:131-146 -/
def TfraEntry.readData (width : Nat) (l0 l1 l2 : Byte) : R (Nat × TfraEntry) := do
  let (r0, time) ← read_uint 64 width
  let (r1, moof_offset) ← read_uint 64 width
  let (r2, a) ← read_uint 32 ((l0.toNat + 1) * 8)
  let (r3, b) ← read_uint 32 ((l1.toNat + 1) * 8)
  let (r4, c) ← read_uint 32 ((l2.toNat + 1) * 8)
  pure (r0 + r1 + r2 + r3 + r4, ⟨time, moof_offset, a, b, c⟩)

/-- src/box/tfra.cpp:52-67 -/
def Tfra.writeData (b : Tfra) : W Nat := do
  let mut wbits ← b.writeVersionAndFlag
  wbits := wbits + (← write_uint b.track_id)
  wbits := wbits + (← write_uint b.reserved 26)
  wbits := wbits + (← write_uint b.length_size_of_traf_num 2)
  wbits := wbits + (← write_uint b.length_size_of_trun_num 2)
  wbits := wbits + (← write_uint b.length_size_of_sample_num 2)
  wbits := wbits + (← write_uint (BitVec.ofNat 32 b.entries.length))
  wbits := wbits + (← writeList (TfraEntry.writeData (vw b.toFullBox) b.length_size_of_traf_num
    b.length_size_of_trun_num b.length_size_of_sample_num) b.entries)
  pure wbits

/-- src/box/tfra.cpp:69-74 -/
def Tfra.getDataSize (b : Tfra) : Nat :=
  16 + (b.entries.map fun _ => TfraEntry.getSize b.toFullBox b.length_size_of_traf_num
    b.length_size_of_trun_num b.length_size_of_sample_num).sum

/-- src/box/tfra.cpp:76-92 -/
def Tfra.readData : R (Nat × Tfra) := do
  let (rbits, fb) ← FullBox.readVersionAndFlag
  let (r0, track_id) ← read_uint 32
  let (r1, reserved) ← read_uint 32 26
  let (r2, l0) ← read_uint 8 2
  let (r3, l1) ← read_uint 8 2
  let (r4, l2) ← read_uint 8 2
  let (r5, entry_count) ← read_uint 32
  let (r6, es) ← readN (TfraEntry.readData (vw fb) l0 l1 l2) entry_count.toNat
  pure (rbits + r0 + r1 + r2 + r3 + r4 + r5 + r6, ⟨fb, track_id, reserved, l0, l1, l2, es⟩)

/-- `TrunEntry` (include/shiguredo/mp4/box/trun.hpp:38-41). -/
structure TrunEntry where
  sample_duration : BitVec 32
  sample_size : BitVec 32
  sample_flags : BitVec 32
  sample_composition_time_offset : BitVec 64
  deriving DecidableEq

/-- src/box/trun.cpp:127-142 -/
def TrunEntry.writeData (fb : FullBox) (e : TrunEntry) : W Nat := do
  let mut wbits := 0
  wbits := wbits + (← W.opt (fb.checkFlag 0x100#32) (write_uint e.sample_duration))
  wbits := wbits + (← W.opt (fb.checkFlag 0x200#32) (write_uint e.sample_size))
  wbits := wbits + (← W.opt (fb.checkFlag 0x400#32) (write_uint e.sample_flags))
  wbits := wbits + (← W.opt (fb.checkFlag 0x800#32) (write_int e.sample_composition_time_offset 32))
  pure wbits

/-- src/box/trun.cpp:144-159 -/
def TrunEntry.getSize (fb : FullBox) : Nat :=
  (if fb.checkFlag 0x100#32 then 4 else 0) + (if fb.checkFlag 0x200#32 then 4 else 0) +
  (if fb.checkFlag 0x400#32 then 4 else 0) + (if fb.checkFlag 0x800#32 then 4 else 0)

/-- src/box/trun.cpp:161-176.  The entry was value-initialised by `resize`, so absent fields are 0. -/
def TrunEntry.readData (fb : FullBox) : R (Nat × TrunEntry) := do
  let (r0, a) ← R.opt (fb.checkFlag 0x100#32) (read_uint 32) 0
  let (r1, b) ← R.opt (fb.checkFlag 0x200#32) (read_uint 32) 0
  let (r2, c) ← R.opt (fb.checkFlag 0x400#32) (read_uint 32) 0
  let (r3, d) ← R.opt (fb.checkFlag 0x800#32) (read_int 64 32) 0
  pure (0 + r0 + r1 + r2 + r3, ⟨a, b, c, d⟩)

/-- `Trun` (include/shiguredo/mp4/box/trun.hpp:66-68). -/
structure Trun extends FullBox where
  data_offset : BitVec 32
  first_sample_flags : BitVec 32
  entries : List TrunEntry
  deriving DecidableEq

/-- src/box/trun.cpp:51-66 -/
def Trun.writeData (b : Trun) : W Nat := do
  let mut wbits ← b.writeVersionAndFlag
  wbits := wbits + (← write_uint (BitVec.ofNat 32 b.entries.length))
  wbits := wbits + (← W.opt (b.checkFlag 0x1#32) (write_int b.data_offset))
  wbits := wbits + (← W.opt (b.checkFlag 0x4#32) (write_uint b.first_sample_flags))
  wbits := wbits + (← writeList (TrunEntry.writeData b.toFullBox) b.entries)
  pure wbits

/-- src/box/trun.cpp:68-81 -/
def Trun.getDataSize (b : Trun) : Nat :=
  8 + (if b.checkFlag 0x1#32 then 4 else 0) + (if b.checkFlag 0x4#32 then 4 else 0) +
    (b.entries.map fun _ => TrunEntry.getSize b.toFullBox).sum

/-- src/box/trun.cpp:83-100.  Absent fields keep what the object held before (`old`). -/
def Trun.readData (old : Trun) : R (Nat × Trun) := do
  let (rbits, fb) ← FullBox.readVersionAndFlag
  let (r0, sample_count) ← read_uint 32
  let (r1, a) ← R.opt (fb.checkFlag 0x1#32) (read_int 32) old.data_offset
  let (r2, b) ← R.opt (fb.checkFlag 0x4#32) (read_uint 32) old.first_sample_flags
  let (r3, es) ← readN (TrunEntry.readData fb) sample_count.toNat
  pure (rbits + r0 + r1 + r2 + r3, ⟨fb, a, b, es⟩)

end Mp4
