import Verif.BitIO.BoxTools
import Verif.Model.BoxType

/-! # Sample entries (`src/box/sample_entry.cpp`) -/

namespace Mp4

/-- `SampleEntry::writeReservedAndDataReferenceIndex` (src/box/sample_entry.cpp:23-29). -/
def writeReservedAndIndex (reserved : Vector Byte 6) (index : BitVec 16) : W Nat := do
  let wbits ← write_arr reserved
  pure (wbits + (← write_uint index))

/-- `SampleEntry::readReservedAndDataReferenceIndex` (src/box/sample_entry.cpp:31-38). -/
def readReservedAndIndex : R (Nat × Vector Byte 6 × BitVec 16) := do
  let (r0, reserved) ← read_arr 8 6
  let (r1, index) ← read_uint 16
  pure (r0 + r1, reserved, index)

/-- `VisualSampleEntry` (include/shiguredo/mp4/box/sample_entry.hpp:21-28, 60-72) with its `AnyTypeBox` type. -/
structure VisualSampleEntry where
  type : BoxType
  reserved : Vector Byte 6
  data_reference_index : BitVec 16
  pre_defined : BitVec 16
  reserved2 : BitVec 16
  pre_defined2 : Vector (BitVec 32) 3
  width : BitVec 16
  height : BitVec 16
  horizresolution : BitVec 32
  vertresolution : BitVec 32
  reserved3 : BitVec 32
  frame_count : BitVec 16
  compressorname : Vector Byte 32
  depth : BitVec 16
  pre_defined3 : BitVec 16
  deriving DecidableEq

/-- src/box/sample_entry.cpp:72-91 -/
def VisualSampleEntry.writeData (b : VisualSampleEntry) : W Nat := do
  let mut wbits ← writeReservedAndIndex b.reserved b.data_reference_index
  wbits := wbits + (← write_uint b.pre_defined)
  wbits := wbits + (← write_uint b.reserved2)
  wbits := wbits + (← write_arr b.pre_defined2)
  wbits := wbits + (← write_uint b.width)
  wbits := wbits + (← write_uint b.height)
  wbits := wbits + (← write_uint b.horizresolution)
  wbits := wbits + (← write_uint b.vertresolution)
  wbits := wbits + (← write_uint b.reserved3)
  wbits := wbits + (← write_uint b.frame_count)
  wbits := wbits + (← write_arr b.compressorname)
  wbits := wbits + (← write_uint b.depth)
  pure (wbits + (← write_int b.pre_defined3))

/-- src/box/sample_entry.cpp:93-95 -/
def VisualSampleEntry.getDataSize (_ : VisualSampleEntry) : Nat := 8 + 4 + 3 * 4 + 18 + 32 + 4

/-- src/box/sample_entry.cpp:97-116; the type was set by the box map and is not read. -/
def VisualSampleEntry.readData (type : BoxType) : R (Nat × VisualSampleEntry) := do
  let (r0, reserved, data_reference_index) ← readReservedAndIndex
  let (r1, pre_defined) ← read_uint 16
  let (r2, reserved2) ← read_uint 16
  let (r3, pre_defined2) ← read_arr 32 3
  let (r4, width) ← read_uint 16
  let (r5, height) ← read_uint 16
  let (r6, horizresolution) ← read_uint 32
  let (r7, vertresolution) ← read_uint 32
  let (r8, reserved3) ← read_uint 32
  let (r9, frame_count) ← read_uint 16
  let (r10, compressorname) ← read_arr 8 32
  let (r11, depth) ← read_uint 16
  let (r12, pre_defined3) ← read_int 16
  pure (r0 + r1 + r2 + r3 + r4 + r5 + r6 + r7 + r8 + r9 + r10 + r11 + r12,
    { type, reserved, data_reference_index, pre_defined, reserved2, pre_defined2, width, height, horizresolution,
      vertresolution, reserved3, frame_count, compressorname, depth, pre_defined3 })

/-- `AudioSampleEntry` (include/shiguredo/mp4/box/sample_entry.hpp:21-28, 101-115) with its type. -/
structure AudioSampleEntry where
  type : BoxType
  reserved : Vector Byte 6
  data_reference_index : BitVec 16
  entry_version : BitVec 16
  reserved2 : Vector (BitVec 16) 3
  channel_count : BitVec 16
  sample_size : BitVec 16
  pre_defined : BitVec 16
  reserved3 : BitVec 16
  sample_rate : BitVec 32
  is_quick_time_compatible : Bool
  quick_time_data : List Byte
  under_wave : Bool
  deriving DecidableEq

/-- `AudioSampleEntry::checkLengthOfQuickTimeData` (src/box/sample_entry.cpp:227-247), called by the
constructor (122-136): `true` when it does not throw. -/
def AudioSampleEntry.checkLengthOfQuickTimeData (b : AudioSampleEntry) (length : Nat) : Bool :=
  if !b.is_quick_time_compatible && decide (length > 0) then false
  else if b.under_wave then true
  else if b.entry_version = 1 ∧ length ≠ 16 then false
  else if b.entry_version = 2 ∧ length ≠ 36 then false
  else true

/-- `AudioSampleEntry::setUnderWave` (src/box/sample_entry.cpp:249-251). -/
def AudioSampleEntry.setUnderWave (b : AudioSampleEntry) (w : Bool) : AudioSampleEntry := { b with under_wave := w }

/-- src/box/sample_entry.cpp:150-166 -/
def AudioSampleEntry.writeData (b : AudioSampleEntry) : W Nat := do
  let mut wbits ← writeReservedAndIndex b.reserved b.data_reference_index
  wbits := wbits + (← write_uint b.entry_version)
  wbits := wbits + (← write_arr b.reserved2)
  wbits := wbits + (← write_uint b.channel_count)
  wbits := wbits + (← write_uint b.sample_size)
  wbits := wbits + (← write_uint b.pre_defined)
  wbits := wbits + (← write_uint b.reserved3)
  wbits := wbits + (← write_uint b.sample_rate)
  pure (wbits + (← W.opt b.is_quick_time_compatible (write_vector_uint b.quick_time_data)))

/-- src/box/sample_entry.cpp:168-174 -/
def AudioSampleEntry.getDataSize (b : AudioSampleEntry) : Nat :=
  let size := 8 + 8 + 8 + 4
  if !b.is_quick_time_compatible then size else size + b.quick_time_data.length

/-- `AudioSampleEntry::getLengthOfQuickTimeData` (src/box/sample_entry.cpp:208-225), at its only call site, where
`m_is_quick_time_compatible` is true and `m_under_wave` false. -/
def AudioSampleEntry.getLengthOfQuickTimeData (entry_version : BitVec 16) (length : Nat) : Nat :=
  if entry_version = 1 then 16 else if entry_version = 2 then 36 else length

/-- src/box/sample_entry.cpp:176-206; `old` is the object before the call: its type and `under_wave` mark were set by
the box map and the tree, and what is not read stays. -/
def AudioSampleEntry.readData (old : AudioSampleEntry) : R (Nat × AudioSampleEntry) :=
  if old.under_wave then do
    let offset_to_end ← R.offsetToEnd
    let (r, quick_time_data) ← read_vector_uint 8 offset_to_end
    pure (r, { old with quick_time_data })
  else do
    let (r0, reserved, data_reference_index) ← readReservedAndIndex
    let (r1, entry_version) ← read_uint 16
    let (r2, reserved2) ← read_arr 16 3
    let (r3, channel_count) ← read_uint 16
    let (r4, sample_size) ← read_uint 16
    let (r5, pre_defined) ← read_uint 16
    let (r6, reserved3) ← read_uint 16
    let (r7, sample_rate) ← read_uint 32
    let rbits := r0 + r1 + r2 + r3 + r4 + r5 + r6 + r7
    let b : AudioSampleEntry := { old with
      reserved, data_reference_index, entry_version, reserved2, channel_count, sample_size, pre_defined, reserved3,
      sample_rate }
    if old.type = fourcc "Opus" ∨ entry_version = 0 then
      pure (rbits, { b with is_quick_time_compatible := false })
    else do
      let offset_to_end ← R.offsetToEnd
      if offset_to_end = 0 then pure (rbits, { b with is_quick_time_compatible := false })
      else do
        let (r, quick_time_data) ←
          read_vector_uint 8 (AudioSampleEntry.getLengthOfQuickTimeData entry_version offset_to_end)
        pure (rbits + r, { b with is_quick_time_compatible := true, quick_time_data })

end Mp4
