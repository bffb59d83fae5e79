import Verif.BitIO.BoxTools
import Verif.Model.Language

/-! # Boxes whose field widths depend on the version -/

namespace Mp4

/-- `m_version == 0 ? 32 : 64` -/
def vw (b : FullBox) : Nat := if b.version = 0#8 then 32 else 64

/-- `Mvhd` (include/shiguredo/mp4/box/mvhd.hpp:45-56). -/
structure Mvhd extends FullBox where
  creation_time : BitVec 64
  modification_time : BitVec 64
  timescale : BitVec 32
  duration : BitVec 64
  rate : BitVec 32
  volume : BitVec 16
  reserved : BitVec 16
  reserved2 : BitVec 32
  reserved3 : BitVec 32
  matrix : Vector (BitVec 32) 9
  pre_defined : Vector (BitVec 32) 6
  next_track_id : BitVec 32
  deriving DecidableEq

/-- src/box/mvhd.cpp:55-74 -/
def Mvhd.writeData (b : Mvhd) : W Nat := do
  let mut wbits ← b.writeVersionAndFlag
  wbits := wbits + (← write_uint b.creation_time (vw b.toFullBox))
  wbits := wbits + (← write_uint b.modification_time (vw b.toFullBox))
  wbits := wbits + (← write_uint b.timescale)
  wbits := wbits + (← write_uint b.duration (vw b.toFullBox))
  wbits := wbits + (← write_int b.rate)
  wbits := wbits + (← write_int b.volume)
  wbits := wbits + (← write_int b.reserved)
  wbits := wbits + (← write_uint b.reserved2)
  wbits := wbits + (← write_uint b.reserved3)
  wbits := wbits + (← write_arr_int b.matrix)
  wbits := wbits + (← write_arr_int b.pre_defined)
  pure (wbits + (← write_uint b.next_track_id))

/-- src/box/mvhd.cpp:76-81 -/
def Mvhd.getDataSize (b : Mvhd) : Nat := if b.version = 0#8 then 100 else 112

/-- src/box/mvhd.cpp:83-102 -/
def Mvhd.readData : R (Nat × Mvhd) := do
  let (rbits, fb) ← FullBox.readVersionAndFlag
  let (r0, creation_time) ← read_uint 64 (vw fb)
  let (r1, modification_time) ← read_uint 64 (vw fb)
  let (r2, timescale) ← read_uint 32
  let (r3, duration) ← read_uint 64 (vw fb)
  let (r4, rate) ← read_int 32
  let (r5, volume) ← read_int 16
  let (r6, reserved) ← read_int 16
  let (r7, reserved2) ← read_uint 32
  let (r8, reserved3) ← read_uint 32
  let (r9, matrix) ← read_arr_int 32 9
  let (r10, pre_defined) ← read_arr_int 32 6
  let (r11, next_track_id) ← read_uint 32
  pure (rbits + r0 + r1 + r2 + r3 + r4 + r5 + r6 + r7 + r8 + r9 + r10 + r11,
    ⟨fb, creation_time, modification_time, timescale, duration, rate, volume, reserved, reserved2, reserved3,
      matrix, pre_defined, next_track_id⟩)

/-- `Tkhd` (include/shiguredo/mp4/box/tkhd.hpp:45-58). -/
structure Tkhd extends FullBox where
  creation_time : BitVec 64
  modification_time : BitVec 64
  track_id : BitVec 32
  reserved : BitVec 32
  duration : BitVec 64
  reserved2 : BitVec 32
  reserved3 : BitVec 32
  layer : BitVec 16
  alternate_group : BitVec 16
  volume : BitVec 16
  reserved4 : BitVec 16
  matrix : Vector (BitVec 32) 9
  width : BitVec 32
  height : BitVec 32
  deriving DecidableEq

/-- src/box/tkhd.cpp:53-78 -/
def Tkhd.writeData (b : Tkhd) : W Nat := do
  let mut wbits ← b.writeVersionAndFlag
  wbits := wbits + (← write_uint b.creation_time (vw b.toFullBox))
  wbits := wbits + (← write_uint b.modification_time (vw b.toFullBox))
  wbits := wbits + (← write_uint b.track_id)
  wbits := wbits + (← write_uint b.reserved)
  wbits := wbits + (← write_uint b.duration (vw b.toFullBox))
  wbits := wbits + (← write_uint b.reserved2)
  wbits := wbits + (← write_uint b.reserved3)
  wbits := wbits + (← write_int b.layer)
  wbits := wbits + (← write_int b.alternate_group)
  wbits := wbits + (← write_int b.volume)
  wbits := wbits + (← write_uint b.reserved4)
  wbits := wbits + (← write_arr_int b.matrix)
  wbits := wbits + (← write_uint b.width)
  wbits := wbits + (← write_uint b.height)
  pure wbits

/-- src/box/tkhd.cpp:80-85 -/
def Tkhd.getDataSize (b : Tkhd) : Nat := if b.version = 0#8 then 84 else 96

/-- src/box/tkhd.cpp:87-112 -/
def Tkhd.readData : R (Nat × Tkhd) := do
  let (rbits, fb) ← FullBox.readVersionAndFlag
  let (r0, creation_time) ← read_uint 64 (vw fb)
  let (r1, modification_time) ← read_uint 64 (vw fb)
  let (r2, track_id) ← read_uint 32
  let (r3, reserved) ← read_uint 32
  let (r4, duration) ← read_uint 64 (vw fb)
  let (r5, reserved2) ← read_uint 32
  let (r6, reserved3) ← read_uint 32
  let (r7, layer) ← read_int 16
  let (r8, alternate_group) ← read_int 16
  let (r9, volume) ← read_int 16
  let (r10, reserved4) ← read_uint 16
  let (r11, matrix) ← read_arr_int 32 9
  let (r12, width) ← read_uint 32
  let (r13, height) ← read_uint 32
  pure (rbits + r0 + r1 + r2 + r3 + r4 + r5 + r6 + r7 + r8 + r9 + r10 + r11 + r12 + r13,
    ⟨fb, creation_time, modification_time, track_id, reserved, duration, reserved2, reserved3, layer,
      alternate_group, volume, reserved4, matrix, width, height⟩)

/-- `Mdhd` (include/shiguredo/mp4/box/mdhd.hpp:39-45). -/
structure Mdhd extends FullBox where
  creation_time : BitVec 64
  modification_time : BitVec 64
  timescale : BitVec 32
  duration : BitVec 64
  pad : Bool
  language : Arr3
  pre_defined : BitVec 16
  deriving DecidableEq

/-- src/box/mdhd.cpp:49-59 -/
def Mdhd.writeData (b : Mdhd) : W Nat := do
  let mut wbits ← b.writeVersionAndFlag
  wbits := wbits + (← write_uint b.creation_time (vw b.toFullBox))
  wbits := wbits + (← write_uint b.modification_time (vw b.toFullBox))
  wbits := wbits + (← write_uint b.timescale)
  wbits := wbits + (← write_uint b.duration (vw b.toFullBox))
  wbits := wbits + (← write_bool b.pad)
  wbits := wbits + (← write_uint (encode_language b.language) 15)
  pure (wbits + (← write_uint b.pre_defined))

/-- src/box/mdhd.cpp:61-66 -/
def Mdhd.getDataSize (b : Mdhd) : Nat := if b.version = 0#8 then 24 else 36

/-- src/box/mdhd.cpp:68-80 -/
def Mdhd.readData : R (Nat × Mdhd) := do
  let (rbits, fb) ← FullBox.readVersionAndFlag
  let (r0, creation_time) ← read_uint 64 (vw fb)
  let (r1, modification_time) ← read_uint 64 (vw fb)
  let (r2, timescale) ← read_uint 32
  let (r3, duration) ← read_uint 64 (vw fb)
  let (r4, pad) ← read_bool
  let (r5, language) ← read_uint 16 15
  let (r6, pre_defined) ← read_uint 16
  pure (rbits + r0 + r1 + r2 + r3 + r4 + r5 + r6,
    ⟨fb, creation_time, modification_time, timescale, duration, pad, decode_language language, pre_defined⟩)

/-- `Mehd` (src/box/mehd.cpp:21-29). -/
structure Mehd extends FullBox where
  fragment_duration : BitVec 64
  deriving DecidableEq

/-- src/box/mehd.cpp:35-39 -/
def Mehd.writeData (b : Mehd) : W Nat := do
  let wbits ← b.writeVersionAndFlag
  pure (wbits + (← write_uint b.fragment_duration (vw b.toFullBox)))

/-- src/box/mehd.cpp:41-43 -/
def Mehd.getDataSize (b : Mehd) : Nat := 4 + (if b.version = 0#8 then 4 else 8)

/-- src/box/mehd.cpp:45-49 -/
def Mehd.readData : R (Nat × Mehd) := do
  let (rbits, fb) ← FullBox.readVersionAndFlag
  let (r, x) ← read_uint 64 (vw fb)
  pure (rbits + r, ⟨fb, x⟩)

/-- `Tfdt` (src/box/tfdt.cpp:21-29). -/
structure Tfdt extends FullBox where
  base_media_decode_time : BitVec 64
  deriving DecidableEq

/-- src/box/tfdt.cpp:35-39 -/
def Tfdt.writeData (b : Tfdt) : W Nat := do
  let wbits ← b.writeVersionAndFlag
  pure (wbits + (← write_uint b.base_media_decode_time (vw b.toFullBox)))

/-- src/box/tfdt.cpp:41-43 -/
def Tfdt.getDataSize (b : Tfdt) : Nat := 8 + (if b.version = 0#8 then 0 else 4)

/-- src/box/tfdt.cpp:45-49 -/
def Tfdt.readData : R (Nat × Tfdt) := do
  let (rbits, fb) ← FullBox.readVersionAndFlag
  let (r, x) ← read_uint 64 (vw fb)
  pure (rbits + r, ⟨fb, x⟩)

/-- `ElstEntry` (include/shiguredo/mp4/box/elst.hpp:38-40). -/
structure ElstEntry where
  track_duration : BitVec 64
  media_time : BitVec 64
  media_rate : BitVec 32
  deriving DecidableEq

/-- src/box/elst.cpp:31-36; the version argument is passed as the width. -/
def ElstEntry.writeData (width : Nat) (e : ElstEntry) : W Nat := do
  let mut wbits ← write_uint e.track_duration width
  wbits := wbits + (← write_int e.media_time width)
  wbits := wbits + (← write_int e.media_rate)
  pure wbits

/-- src/box/elst.cpp:38-43 -/
def ElstEntry.readData (width : Nat) : R (Nat × ElstEntry) := do
  let (rbits, a) ← read_uint 64 width
  let (r0, b) ← read_int 64 width
  let (r1, c) ← read_int 32
  pure (rbits + r0 + r1, ⟨a, b, c⟩)

/-- `Elst` (src/box/elst.cpp:53-61). -/
structure Elst extends FullBox where
  entries : List ElstEntry
  deriving DecidableEq

/-- src/box/elst.cpp:72-80 -/
def Elst.writeData (b : Elst) : W Nat := do
  let mut wbits ← b.writeVersionAndFlag
  wbits := wbits + (← write_uint (BitVec.ofNat 32 b.entries.length))
  wbits := wbits + (← writeList (ElstEntry.writeData (vw b.toFullBox)) b.entries)
  pure wbits

/-- src/box/elst.cpp:82-84 -/
def Elst.getDataSize (b : Elst) : Nat := 8 + b.entries.length * (if b.version = 0#8 then 12 else 20)

/-- src/box/elst.cpp:86-98 -/
def Elst.readData : R (Nat × Elst) := do
  let (rbits, fb) ← FullBox.readVersionAndFlag
  let (r0, entry_count) ← read_uint 32
  let (r1, es) ← readN (ElstEntry.readData (vw fb)) entry_count.toNat
  pure (rbits + r0 + r1, ⟨fb, es⟩)

/-- `SidxReference` (include/shiguredo/mp4/box/sidx.hpp:40-45). -/
structure SidxReference where
  reference_type : Bool
  reference_size : BitVec 32
  subsegument_duration : BitVec 32
  starts_with_sap : Bool
  sap_type : Byte
  sap_delta_time : BitVec 32
  deriving DecidableEq

/-- src/box/sidx.cpp:105-112 -/
def SidxReference.writeData (r : SidxReference) : W Nat := do
  let mut wbits ← write_bool r.reference_type
  wbits := wbits + (← write_uint r.reference_size 31)
  wbits := wbits + (← write_uint r.subsegument_duration)
  wbits := wbits + (← write_bool r.starts_with_sap)
  wbits := wbits + (← write_uint r.sap_type 3)
  pure (wbits + (← write_uint r.sap_delta_time 28))

/-- src/box/sidx.cpp:114-121 -/
def SidxReference.readData : R (Nat × SidxReference) := do
  let (rbits, a) ← read_bool
  let (r0, b) ← read_uint 32 31
  let (r1, c) ← read_uint 32
  let (r2, d) ← read_bool
  let (r3, e) ← read_uint 8 3
  let (r4, f) ← read_uint 32 28
  pure (rbits + r0 + r1 + r2 + r3 + r4, ⟨a, b, c, d, e, f⟩)

/-- `Sidx` (include/shiguredo/mp4/box/sidx.hpp:72-77). -/
structure Sidx extends FullBox where
  reference_id : BitVec 32
  timescale : BitVec 32
  earliest_presentation_time : BitVec 64
  first_offset : BitVec 64
  reserved : BitVec 16
  references : List SidxReference
  deriving DecidableEq

/-- src/box/sidx.cpp:52-66 -/
def Sidx.writeData (b : Sidx) : W Nat := do
  let mut wbits ← b.writeVersionAndFlag
  wbits := wbits + (← write_uint b.reference_id)
  wbits := wbits + (← write_uint b.timescale)
  wbits := wbits + (← write_uint b.earliest_presentation_time (vw b.toFullBox))
  wbits := wbits + (← write_uint b.first_offset (vw b.toFullBox))
  wbits := wbits + (← write_uint b.reserved)
  wbits := wbits + (← write_uint (BitVec.ofNat 16 b.references.length))
  wbits := wbits + (← writeList SidxReference.writeData b.references)
  pure wbits

/-- src/box/sidx.cpp:68-70 -/
def Sidx.getDataSize (b : Sidx) : Nat := 24 + 12 * b.references.length + (if b.version = 0#8 then 0 else 8)

/-- src/box/sidx.cpp:72-88 -/
def Sidx.readData : R (Nat × Sidx) := do
  let (rbits, fb) ← FullBox.readVersionAndFlag
  let (r0, reference_id) ← read_uint 32
  let (r1, timescale) ← read_uint 32
  let (r2, ept) ← read_uint 64 (vw fb)
  let (r3, first_offset) ← read_uint 64 (vw fb)
  let (r4, reserved) ← read_uint 16
  let (r5, size) ← read_uint 16
  let (r6, refs) ← readN SidxReference.readData size.toNat
  pure (rbits + r0 + r1 + r2 + r3 + r4 + r5 + r6, ⟨fb, reference_id, timescale, ept, first_offset, reserved, refs⟩)

end Mp4
