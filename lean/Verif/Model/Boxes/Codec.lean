import Verif.BitIO.BoxTools

/-! # Codec configuration boxes `avcC`, `av1C`, `vpcC`, `dOps` -/

namespace Mp4

/-- `is_avc_high_profile` (src/box/avc.cpp:23-46; values include/shiguredo/mp4/box/avc.hpp:21-36). -/
def is_avc_high_profile (profile : Byte) : Bool :=
  profile == 0x56#8 || profile == 0x64#8 || profile == 0x6e#8 || profile == 0x76#8 || profile == 0x7a#8 ||
  profile == 0x80#8 || profile == 0x8a#8 || profile == 0x90#8 || profile == 0xf4#8

/-- `AVCParameterSet::writeData` (src/box/avc.cpp:54-58); a parameter set is its NAL unit. -/
def AVCParameterSet.writeData (nal : List Byte) : W Nat := do
  let wbits ← write_uint (BitVec.ofNat 16 nal.length)
  pure (wbits + (← write_vector_uint nal))

/-- src/box/avc.cpp:60-65 -/
def AVCParameterSet.readData : R (Nat × List Byte) := do
  let (r0, size) ← read_uint 16
  let (r1, nal) ← read_vector_uint 8 size.toNat
  pure (r0 + r1, nal)

/-- src/box/avc.cpp:67-69 -/
def AVCParameterSet.getSize (nal : List Byte) : Nat := 2 + nal.length

/-- `AVCDecoderConfiguration` (include/shiguredo/mp4/box/avc.hpp:88-104). -/
structure AvcC where
  configuration_version : Byte
  profile : Byte
  profile_compatibility : Byte
  level : Byte
  reserved : Byte
  length_size_minus_one : Byte
  reserved2 : Byte
  sequence_parameter_sets : List (List Byte)
  picture_parameter_sets : List (List Byte)
  high_profile_fields_enabled : Bool
  reserved3 : Byte
  chroma_format : Byte
  reserved4 : Byte
  bit_depth_luma_minus8 : Byte
  reserved5 : Byte
  bit_depth_chroma_minus8 : Byte
  sequence_parameter_sets_ext : List (List Byte)
  deriving DecidableEq

/-- src/box/avc.cpp:128-163 -/
def AvcC.writeData (b : AvcC) : W Nat := do
  let mut wbits ← write_uint b.configuration_version
  wbits := wbits + (← write_uint b.profile)
  wbits := wbits + (← write_uint b.profile_compatibility)
  wbits := wbits + (← write_uint b.level)
  wbits := wbits + (← write_uint b.reserved 6)
  wbits := wbits + (← write_uint b.length_size_minus_one 2)
  wbits := wbits + (← write_uint b.reserved2 3)
  wbits := wbits + (← write_uint (BitVec.ofNat 8 b.sequence_parameter_sets.length) 5)
  wbits := wbits + (← writeList AVCParameterSet.writeData b.sequence_parameter_sets)
  wbits := wbits + (← write_uint (BitVec.ofNat 8 b.picture_parameter_sets.length))
  wbits := wbits + (← writeList AVCParameterSet.writeData b.picture_parameter_sets)
  if !b.high_profile_fields_enabled then pure wbits
  else if !is_avc_high_profile b.profile then
    W.throw (.exc
      "AVCDecoderConfiguration::writeData(): m_profile and m_high_profile_fields_enabled are not inconsistent")
  else do
    wbits := wbits + (← write_uint b.reserved3 6)
    wbits := wbits + (← write_uint b.chroma_format 2)
    wbits := wbits + (← write_uint b.reserved4 5)
    wbits := wbits + (← write_uint b.bit_depth_luma_minus8 3)
    wbits := wbits + (← write_uint b.reserved5 5)
    wbits := wbits + (← write_uint b.bit_depth_chroma_minus8 3)
    wbits := wbits + (← write_uint (BitVec.ofNat 8 b.sequence_parameter_sets_ext.length))
    wbits := wbits + (← writeList AVCParameterSet.writeData b.sequence_parameter_sets_ext)
    pure wbits

/-- src/box/avc.cpp:165-211; `AVCHighProfileMinimumSize` is 4 (avc.hpp:40).  The high-profile fields that are not
read keep the values the object held before (`old`). -/
def AvcC.readData (old : AvcC) : R (Nat × AvcC) := do
  let (r0, configuration_version) ← read_uint 8
  let (r1, profile) ← read_uint 8
  let (r2, profile_compatibility) ← read_uint 8
  let (r3, level) ← read_uint 8
  let (r4, reserved) ← read_uint 8 6
  let (r5, length_size_minus_one) ← read_uint 8 2
  let (r6, reserved2) ← read_uint 8 3
  let (r7, size_of_seq) ← read_uint 8 5
  let (r8, seq) ← readN AVCParameterSet.readData size_of_seq.toNat
  let (r9, size_of_pic) ← read_uint 8
  let (r10, pic) ← readN AVCParameterSet.readData size_of_pic.toNat
  let rbits := r0 + r1 + r2 + r3 + r4 + r5 + r6 + r7 + r8 + r9 + r10
  let b : AvcC := { old with
    configuration_version, profile, profile_compatibility, level, reserved, length_size_minus_one, reserved2,
    sequence_parameter_sets := seq, picture_parameter_sets := pic, high_profile_fields_enabled := false }
  if !is_avc_high_profile profile then pure (rbits, b)
  else do
    let offset_to_end ← R.offsetToEnd
    if offset_to_end < 4 then pure (rbits + offset_to_end * 8, b)
    else do
      let (s0, reserved3) ← read_uint 8 6
      let (s1, chroma_format) ← read_uint 8 2
      let (s2, reserved4) ← read_uint 8 5
      let (s3, luma) ← read_uint 8 3
      let (s4, reserved5) ← read_uint 8 5
      let (s5, chroma) ← read_uint 8 3
      let (s6, size_of_ext) ← read_uint 8
      let (s7, ext) ← readN AVCParameterSet.readData size_of_ext.toNat
      pure (rbits + s0 + s1 + s2 + s3 + s4 + s5 + s6 + s7, { b with
        high_profile_fields_enabled := true, reserved3, chroma_format, reserved4, bit_depth_luma_minus8 := luma,
        reserved5, bit_depth_chroma_minus8 := chroma, sequence_parameter_sets_ext := ext })

/-- src/box/avc.cpp:213-227 -/
def AvcC.getDataSize (b : AvcC) : Nat :=
  let size := 6 + (b.sequence_parameter_sets.map AVCParameterSet.getSize).sum + 1 +
    (b.picture_parameter_sets.map AVCParameterSet.getSize).sum
  if !b.high_profile_fields_enabled then size
  else size + 4 + (b.sequence_parameter_sets_ext.map AVCParameterSet.getSize).sum

/-- `AV1CodecConfiguration` (include/shiguredo/mp4/box/av1c.hpp:44-58). -/
structure Av1C where
  marker : Byte
  version : Byte
  seq_profile : Byte
  seq_level_idx_0 : Byte
  seq_tier_0 : Byte
  high_bitdepth : Bool
  twelve_bit : Bool
  monochrome : Bool
  chroma_subsampling_x : Byte
  chroma_subsampling_y : Byte
  chroma_sample_position : Byte
  reserved : Byte
  initial_presentation_delay_present : Bool
  initial_presentation_delay_minus_one : Byte
  config_OBUs : List Byte
  deriving DecidableEq

/-- src/box/av1c.cpp:42-59 -/
def Av1C.writeData (b : Av1C) : W Nat := do
  let mut wbits ← write_uint b.marker 1
  wbits := wbits + (← write_uint b.version 7)
  wbits := wbits + (← write_uint b.seq_profile 3)
  wbits := wbits + (← write_uint b.seq_level_idx_0 5)
  wbits := wbits + (← write_uint b.seq_tier_0 1)
  wbits := wbits + (← write_bool b.high_bitdepth)
  wbits := wbits + (← write_bool b.twelve_bit)
  wbits := wbits + (← write_bool b.monochrome)
  wbits := wbits + (← write_uint b.chroma_subsampling_x 1)
  wbits := wbits + (← write_uint b.chroma_subsampling_y 1)
  wbits := wbits + (← write_uint b.chroma_sample_position 2)
  wbits := wbits + (← write_uint b.reserved 3)
  wbits := wbits + (← write_bool b.initial_presentation_delay_present)
  wbits := wbits + (← write_uint b.initial_presentation_delay_minus_one 4)
  pure (wbits + (← write_vector_uint b.config_OBUs))

/-- src/box/av1c.cpp:61-63 -/
def Av1C.getDataSize (b : Av1C) : Nat := 4 + b.config_OBUs.length

/-- src/box/av1c.cpp:65-84 -/
def Av1C.readData : R (Nat × Av1C) := do
  let (r0, marker) ← read_uint 8 1
  let (r1, version) ← read_uint 8 7
  let (r2, seq_profile) ← read_uint 8 3
  let (r3, seq_level_idx_0) ← read_uint 8 5
  let (r4, seq_tier_0) ← read_uint 8 1
  let (r5, high_bitdepth) ← read_bool
  let (r6, twelve_bit) ← read_bool
  let (r7, monochrome) ← read_bool
  let (r8, chroma_subsampling_x) ← read_uint 8 1
  let (r9, chroma_subsampling_y) ← read_uint 8 1
  let (r10, chroma_sample_position) ← read_uint 8 2
  let (r11, reserved) ← read_uint 8 3
  let (r12, present) ← read_bool
  let (r13, minus_one) ← read_uint 8 4
  let offset_to_end ← R.offsetToEnd
  let (r14, obus) ← read_vector_uint 8 offset_to_end
  pure (r0 + r1 + r2 + r3 + r4 + r5 + r6 + r7 + r8 + r9 + r10 + r11 + r12 + r13 + r14,
    ⟨marker, version, seq_profile, seq_level_idx_0, seq_tier_0, high_bitdepth, twelve_bit, monochrome,
      chroma_subsampling_x, chroma_subsampling_y, chroma_sample_position, reserved, present, minus_one, obus⟩)

/-- `VPCodecConfiguration` (include/shiguredo/mp4/box/vpc.hpp:41-49). -/
structure VpcC extends FullBox where
  profile : Byte
  level : Byte
  bit_depth : Byte
  chroma_sub_sampling : Byte
  video_full_range_flag : Byte
  colour_primaries : Byte
  transfer_characteristics : Byte
  matrix_coefficients : Byte
  codec_initialization_data : List Byte
  deriving DecidableEq

/-- src/box/vpc.cpp:35-52 -/
def VpcC.writeData (b : VpcC) : W Nat := do
  let mut wbits ← b.writeVersionAndFlag
  wbits := wbits + (← write_uint b.profile)
  wbits := wbits + (← write_uint b.level)
  wbits := wbits + (← write_uint b.bit_depth 4)
  wbits := wbits + (← write_uint b.chroma_sub_sampling 3)
  wbits := wbits + (← write_uint b.video_full_range_flag 1)
  wbits := wbits + (← write_uint b.colour_primaries)
  wbits := wbits + (← write_uint b.transfer_characteristics)
  wbits := wbits + (← write_uint b.matrix_coefficients)
  if b.version = 0#8 then pure wbits
  else do
    wbits := wbits + (← write_uint (BitVec.ofNat 16 b.codec_initialization_data.length))
    pure (wbits + (← write_vector_uint b.codec_initialization_data))

/-- src/box/vpc.cpp:54-59 -/
def VpcC.getDataSize (b : VpcC) : Nat :=
  if b.version = 0#8 then 10 else 12 + b.codec_initialization_data.length

/-- src/box/vpc.cpp:61-79.  In version 0 the vector keeps the (empty) value of a fresh object. -/
def VpcC.readData : R (Nat × VpcC) := do
  let (rbits, fb) ← FullBox.readVersionAndFlag
  let (r0, profile) ← read_uint 8
  let (r1, level) ← read_uint 8
  let (r2, bit_depth) ← read_uint 8 4
  let (r3, chroma) ← read_uint 8 3
  let (r4, range) ← read_uint 8 1
  let (r5, primaries) ← read_uint 8
  let (r6, transfer) ← read_uint 8
  let (r7, matrix) ← read_uint 8
  let rbits := rbits + r0 + r1 + r2 + r3 + r4 + r5 + r6 + r7
  if fb.version = 0#8 then
    pure (rbits, ⟨fb, profile, level, bit_depth, chroma, range, primaries, transfer, matrix, []⟩)
  else do
    let (r8, size) ← read_uint 16
    let (r9, l) ← read_vector_uint 8 size.toNat
    pure (rbits + r8 + r9, ⟨fb, profile, level, bit_depth, chroma, range, primaries, transfer, matrix, l⟩)

/-- `DOps` (include/shiguredo/mp4/box/dOps.hpp:68-74; the mapping table 39-41 is inlined). -/
structure DOps where
  version : Byte
  output_channel_count : Byte
  pre_skip : BitVec 16
  input_sample_rate : BitVec 32
  output_gain : BitVec 16
  channel_mapping_family : Byte
  stream_count : Byte
  coupled_count : Byte
  channel_mapping : List Byte
  deriving DecidableEq

/-- src/box/dOps.cpp:81-85 -/
def DOps.writeTable (b : DOps) : W Nat := do
  let wbits := (← write_uint b.stream_count) + (← write_uint b.coupled_count)
  pure (wbits + (← write_vector_uint b.channel_mapping))

/-- src/box/dOps.cpp:36-48 -/
def DOps.writeData (b : DOps) : W Nat := do
  let mut wbits ← write_uint b.version
  wbits := wbits + (← write_uint b.output_channel_count)
  wbits := wbits + (← write_uint b.pre_skip)
  wbits := wbits + (← write_uint b.input_sample_rate)
  wbits := wbits + (← write_int b.output_gain)
  wbits := wbits + (← write_uint b.channel_mapping_family)
  if b.channel_mapping_family = 0#8 then pure wbits
  else pure (wbits + (← b.writeTable))

/-- src/box/dOps.cpp:50-55, 87-89 -/
def DOps.getDataSize (b : DOps) : Nat :=
  if b.channel_mapping_family = 0#8 then 11 else 11 + (2 + b.channel_mapping.length)

/-- src/box/dOps.cpp:57-69, 91-95; without a table the default table (dOps.hpp:39-41) stays. -/
def DOps.readData : R (Nat × DOps) := do
  let (r0, version) ← read_uint 8
  let (r1, count) ← read_uint 8
  let (r2, pre_skip) ← read_uint 16
  let (r3, rate) ← read_uint 32
  let (r4, gain) ← read_int 16
  let (r5, family) ← read_uint 8
  let rbits := r0 + r1 + r2 + r3 + r4 + r5
  if family = 0#8 then pure (rbits, ⟨version, count, pre_skip, rate, gain, family, 0, 0, []⟩)
  else do
    let (s0, stream_count) ← read_uint 8
    let (s1, coupled_count) ← read_uint 8
    let (s2, mapping) ← read_vector_uint 8 count.toNat
    pure (rbits + (s0 + s1 + s2),
      ⟨version, count, pre_skip, rate, gain, family, stream_count, coupled_count, mapping⟩)

end Mp4
