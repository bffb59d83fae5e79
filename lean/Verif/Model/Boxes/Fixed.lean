import Verif.BitIO.BoxTools

/-! # Boxes with a fixed layout -/

namespace Mp4

/-- `Btrt` (src/box/btrt.cpp:21-30). -/
structure Btrt where
  decoding_buffer_size : BitVec 32
  max_bitrate : BitVec 32
  avg_bitrate : BitVec 32
  deriving DecidableEq

/-- src/box/btrt.cpp:37-42 -/
def Btrt.writeData (b : Btrt) : W Nat := do
  pure ((← write_uint b.decoding_buffer_size) + (← write_uint b.max_bitrate) + (← write_uint b.avg_bitrate))

/-- src/box/btrt.cpp:44-46 -/
def Btrt.getDataSize (_ : Btrt) : Nat := 12

/-- src/box/btrt.cpp:48-53 -/
def Btrt.readData : R (Nat × Btrt) := do
  let (r0, a) ← read_uint 32
  let (r1, b) ← read_uint 32
  let (r2, c) ← read_uint 32
  pure (r0 + r1 + r2, ⟨a, b, c⟩)

/-- `PixelAspectRatio` (src/box/pixel_aspect_ratio.cpp:21-28). -/
structure Pasp where
  h_spacing : BitVec 32
  v_spacing : BitVec 32
  deriving DecidableEq

/-- src/box/pixel_aspect_ratio.cpp:34-38 -/
def Pasp.writeData (b : Pasp) : W Nat := do
  let wbits ← write_uint b.h_spacing
  pure (wbits + (← write_uint b.v_spacing))

/-- src/box/pixel_aspect_ratio.cpp:40-44 -/
def Pasp.readData : R (Nat × Pasp) := do
  let (rbits, a) ← read_uint 32
  let (r, b) ← read_uint 32
  pure (rbits + r, ⟨a, b⟩)

/-- src/box/pixel_aspect_ratio.cpp:46-48 -/
def Pasp.getDataSize (_ : Pasp) : Nat := 8

/-- `Fiel` (src/box/fiel.cpp:21-27). -/
structure Fiel where
  field_count : Byte
  field_ordering : Byte
  deriving DecidableEq

/-- src/box/fiel.cpp:33-37 -/
def Fiel.writeData (b : Fiel) : W Nat := do
  pure ((← write_uint b.field_count) + (← write_uint b.field_ordering))

/-- src/box/fiel.cpp:39-41 -/
def Fiel.getDataSize (_ : Fiel) : Nat := 2

/-- src/box/fiel.cpp:43-47 -/
def Fiel.readData : R (Nat × Fiel) := do
  let (r0, a) ← read_uint 8
  let (r1, b) ← read_uint 8
  pure (r0 + r1, ⟨a, b⟩)

/-- `Smhd` (src/box/smhd.cpp:21-29; `m_reserved` is overwritten by reading). -/
structure Smhd extends FullBox where
  balance : BitVec 16
  reserved : BitVec 16
  deriving DecidableEq

/-- src/box/smhd.cpp:35-40 -/
def Smhd.writeData (b : Smhd) : W Nat := do
  let wbits ← b.writeVersionAndFlag
  pure (wbits + (← write_uint b.balance) + (← write_uint b.reserved))

/-- src/box/smhd.cpp:42-44 -/
def Smhd.getDataSize (_ : Smhd) : Nat := 8

/-- src/box/smhd.cpp:46-51 -/
def Smhd.readData : R (Nat × Smhd) := do
  let (rbits, fb) ← FullBox.readVersionAndFlag
  let (r0, a) ← read_uint 16
  let (r1, b) ← read_uint 16
  pure (rbits + r0 + r1, ⟨fb, a, b⟩)

/-- `Vmhd` (src/box/vmhd.cpp:22-30). -/
structure Vmhd extends FullBox where
  graphicsmode : BitVec 16
  opcolor : Vector (BitVec 16) 3
  deriving DecidableEq

/-- src/box/vmhd.cpp:37-45 -/
def Vmhd.writeData (b : Vmhd) : W Nat := do
  let mut wbits ← b.writeVersionAndFlag
  wbits := wbits + (← write_uint b.graphicsmode)
  wbits := wbits + (← write_arr b.opcolor)
  pure wbits

/-- src/box/vmhd.cpp:47-49 -/
def Vmhd.getDataSize (_ : Vmhd) : Nat := 12

/-- src/box/vmhd.cpp:51-59 -/
def Vmhd.readData : R (Nat × Vmhd) := do
  let (rbits, fb) ← FullBox.readVersionAndFlag
  let (r0, g) ← read_uint 16
  let (r1, o) ← read_arr 16 3
  pure (rbits + r0 + r1, ⟨fb, g, o⟩)

/-- `Mfhd` (src/box/mfhd.cpp:21-29). -/
structure Mfhd extends FullBox where
  sequence_number : BitVec 32
  deriving DecidableEq

/-- src/box/mfhd.cpp:35-39 -/
def Mfhd.writeData (b : Mfhd) : W Nat := do
  let wbits ← b.writeVersionAndFlag
  pure (wbits + (← write_uint b.sequence_number))

/-- src/box/mfhd.cpp:41-45 -/
def Mfhd.readData : R (Nat × Mfhd) := do
  let (rbits, fb) ← FullBox.readVersionAndFlag
  let (r, x) ← read_uint 32
  pure (rbits + r, ⟨fb, x⟩)

/-- src/box/mfhd.cpp:47-49 -/
def Mfhd.getDataSize (_ : Mfhd) : Nat := 8

/-- `Mfro` (src/box/mfro.cpp:21-29). -/
structure Mfro extends FullBox where
  size : BitVec 32
  deriving DecidableEq

/-- src/box/mfro.cpp:35-39 -/
def Mfro.writeData (b : Mfro) : W Nat := do
  let wbits ← b.writeVersionAndFlag
  pure (wbits + (← write_uint b.size))

/-- src/box/mfro.cpp:41-45 -/
def Mfro.readData : R (Nat × Mfro) := do
  let (rbits, fb) ← FullBox.readVersionAndFlag
  let (r, x) ← read_uint 32
  pure (rbits + r, ⟨fb, x⟩)

/-- src/box/mfro.cpp:47-49 -/
def Mfro.getDataSize (_ : Mfro) : Nat := 8

/-- `Dref` (src/box/dref.cpp:21-29). -/
structure Dref extends FullBox where
  entry_count : BitVec 32
  deriving DecidableEq

/-- src/box/dref.cpp:35-39 -/
def Dref.writeData (b : Dref) : W Nat := do
  let wbits ← b.writeVersionAndFlag
  pure (wbits + (← write_uint b.entry_count))

/-- src/box/dref.cpp:41-45 -/
def Dref.readData : R (Nat × Dref) := do
  let (rbits, fb) ← FullBox.readVersionAndFlag
  let (r, x) ← read_uint 32
  pure (rbits + r, ⟨fb, x⟩)

/-- src/box/dref.cpp:47-49 -/
def Dref.getDataSize (_ : Dref) : Nat := 8

/-- `Stsd` (src/box/stsd.cpp:21-29). -/
structure Stsd extends FullBox where
  entry_count : BitVec 32
  deriving DecidableEq

/-- src/box/stsd.cpp:35-39 -/
def Stsd.writeData (b : Stsd) : W Nat := do
  let wbits ← b.writeVersionAndFlag
  pure (wbits + (← write_uint b.entry_count))

/-- src/box/stsd.cpp:41-43 -/
def Stsd.getDataSize (_ : Stsd) : Nat := 8

/-- src/box/stsd.cpp:45-49 -/
def Stsd.readData : R (Nat × Stsd) := do
  let (rbits, fb) ← FullBox.readVersionAndFlag
  let (r, x) ← read_uint 32
  pure (rbits + r, ⟨fb, x⟩)

/-- `Trex` (src/box/trex.cpp:21-34). -/
structure Trex extends FullBox where
  track_id : BitVec 32
  default_sample_description_index : BitVec 32
  default_sample_duration : BitVec 32
  default_sample_size : BitVec 32
  default_sample_flags : BitVec 32
  deriving DecidableEq

/-- src/box/trex.cpp:44-53 -/
def Trex.writeData (b : Trex) : W Nat := do
  let mut wbits ← b.writeVersionAndFlag
  wbits := wbits + (← write_uint b.track_id)
  wbits := wbits + (← write_uint b.default_sample_description_index)
  wbits := wbits + (← write_uint b.default_sample_duration)
  wbits := wbits + (← write_uint b.default_sample_size)
  wbits := wbits + (← write_uint b.default_sample_flags)
  pure wbits

/-- src/box/trex.cpp:55-57 -/
def Trex.getDataSize (_ : Trex) : Nat := 24

/-- src/box/trex.cpp:59-68 -/
def Trex.readData : R (Nat × Trex) := do
  let (rbits, fb) ← FullBox.readVersionAndFlag
  let (r0, a) ← read_uint 32
  let (r1, b) ← read_uint 32
  let (r2, c) ← read_uint 32
  let (r3, d) ← read_uint 32
  let (r4, e) ← read_uint 32
  pure (rbits + r0 + r1 + r2 + r3 + r4, ⟨fb, a, b, c, d, e⟩)

/-- `Iods` (src/box/iods.cpp:21-37). -/
structure Iods extends FullBox where
  type_tag : Byte
  descriptor_length : BitVec 32
  od_id : BitVec 16
  od_profile_level : Byte
  scene_profile_level : Byte
  audio_profile_level : Byte
  video_profile_level : Byte
  graphics_profile_level : Byte
  deriving DecidableEq

/-- src/box/iods.cpp:48-60 -/
def Iods.writeData (b : Iods) : W Nat := do
  let mut wbits ← b.writeVersionAndFlag
  wbits := wbits + (← write_uint b.type_tag)
  wbits := wbits + (← write_uvarint b.descriptor_length)
  wbits := wbits + (← write_uint b.od_id)
  wbits := wbits + (← write_uint b.od_profile_level)
  wbits := wbits + (← write_uint b.scene_profile_level)
  wbits := wbits + (← write_uint b.audio_profile_level)
  wbits := wbits + (← write_uint b.video_profile_level)
  wbits := wbits + (← write_uint b.graphics_profile_level)
  pure wbits

/-- src/box/iods.cpp:62-64 -/
def Iods.getDataSize (_ : Iods) : Nat := 12 + uvarint_size 32

/-- src/box/iods.cpp:66-78.  The last line adds `(m_descriptor_length - 7) * 8` computed in 32 bits. -/
def Iods.readData : R (Nat × Iods) := do
  let (rbits, fb) ← FullBox.readVersionAndFlag
  let (r0, a) ← read_uint 8
  let (r1, len) ← read_uvarint 32
  let (r2, c) ← read_uint 16
  let (r3, d) ← read_uint 8
  let (r4, e) ← read_uint 8
  let (r5, f) ← read_uint 8
  let (r6, g) ← read_uint 8
  let (r7, h) ← read_uint 8
  pure (rbits + r0 + r1 + r2 + r3 + r4 + r5 + r6 + r7 + ((len - 7#32) * 8#32).toNat, ⟨fb, a, len, c, d, e, f, g, h⟩)

end Mp4
