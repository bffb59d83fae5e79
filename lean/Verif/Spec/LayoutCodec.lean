import Verif.Model.Boxes.Codec

/-! # File format of the codec configuration boxes (ISO/IEC 14496-15, AV1-ISOBMFF, VP-ISOBMFF, Opus-ISOBMFF) -/

namespace Mp4.Layout
open Mp4

/-- A parameter set: 16-bit length and the NAL unit. -/
def parameterSet (nal : List Byte) := cbits 16 nal.length ++ nal.flatMap bits

def avcCHigh (b : AvcC) := ubits 6 b.reserved3 ++ ubits 2 b.chroma_format ++ ubits 5 b.reserved4 ++
  ubits 3 b.bit_depth_luma_minus8 ++ ubits 5 b.reserved5 ++ ubits 3 b.bit_depth_chroma_minus8 ++
  cbits 8 b.sequence_parameter_sets_ext.length ++ b.sequence_parameter_sets_ext.flatMap parameterSet

def avcC (b : AvcC) := bits b.configuration_version ++ bits b.profile ++ bits b.profile_compatibility ++
  bits b.level ++ ubits 6 b.reserved ++ ubits 2 b.length_size_minus_one ++ ubits 3 b.reserved2 ++
  cbits 5 b.sequence_parameter_sets.length ++ b.sequence_parameter_sets.flatMap parameterSet ++
  cbits 8 b.picture_parameter_sets.length ++ b.picture_parameter_sets.flatMap parameterSet ++
  onlyIf b.high_profile_fields_enabled (avcCHigh b)

def av1C (b : Av1C) := ubits 1 b.marker ++ ubits 7 b.version ++ ubits 3 b.seq_profile ++
  ubits 5 b.seq_level_idx_0 ++ ubits 1 b.seq_tier_0 ++ bbit b.high_bitdepth ++ bbit b.twelve_bit ++
  bbit b.monochrome ++ ubits 1 b.chroma_subsampling_x ++ ubits 1 b.chroma_subsampling_y ++
  ubits 2 b.chroma_sample_position ++ ubits 3 b.reserved ++ bbit b.initial_presentation_delay_present ++
  ubits 4 b.initial_presentation_delay_minus_one ++ b.config_OBUs.flatMap bits

def vpcC (b : VpcC) := fbits b.toFullBox ++ bits b.profile ++ bits b.level ++ ubits 4 b.bit_depth ++
  ubits 3 b.chroma_sub_sampling ++ ubits 1 b.video_full_range_flag ++ bits b.colour_primaries ++
  bits b.transfer_characteristics ++ bits b.matrix_coefficients ++
  onlyIf (b.version ≠ 0#8)
    (cbits 16 b.codec_initialization_data.length ++ b.codec_initialization_data.flatMap bits)

def dOps (b : DOps) := bits b.version ++ bits b.output_channel_count ++ bits b.pre_skip ++
  bits b.input_sample_rate ++ bits b.output_gain ++ bits b.channel_mapping_family ++
  onlyIf (b.channel_mapping_family ≠ 0#8)
    (bits b.stream_count ++ bits b.coupled_count ++ b.channel_mapping.flatMap bits)

end Mp4.Layout

/-! ### Which values are representable, and what a reader object ends up with -/

namespace Mp4

/-- The high-profile fields may be enabled only with a high profile. -/
def AvcC.Consistent (b : AvcC) : Prop := b.high_profile_fields_enabled = true → is_avc_high_profile b.profile = true

/-- Bit-field and count ranges of a decoder configuration. -/
structure AvcC.Fits (b : AvcC) : Prop where
  r : b.reserved.toNat < 2 ^ 6
  l : b.length_size_minus_one.toNat < 2 ^ 2
  r2 : b.reserved2.toNat < 2 ^ 3
  nseq : b.sequence_parameter_sets.length < 2 ^ 5
  npic : b.picture_parameter_sets.length < 2 ^ 8
  seq : ∀ n ∈ b.sequence_parameter_sets, n.length < 2 ^ 16
  pic : ∀ n ∈ b.picture_parameter_sets, n.length < 2 ^ 16

/-- Ranges of the high-profile fields. -/
structure AvcC.FitsHigh (b : AvcC) : Prop where
  r3 : b.reserved3.toNat < 2 ^ 6
  c : b.chroma_format.toNat < 2 ^ 2
  r4 : b.reserved4.toNat < 2 ^ 5
  l : b.bit_depth_luma_minus8.toNat < 2 ^ 3
  r5 : b.reserved5.toNat < 2 ^ 5
  ch : b.bit_depth_chroma_minus8.toNat < 2 ^ 3
  next : b.sequence_parameter_sets_ext.length < 2 ^ 8
  ext : ∀ n ∈ b.sequence_parameter_sets_ext, n.length < 2 ^ 16

/-- Bit-field ranges. -/
structure Av1C.Fits (b : Av1C) : Prop where
  m : b.marker.toNat < 2 ^ 1
  v : b.version.toNat < 2 ^ 7
  p : b.seq_profile.toNat < 2 ^ 3
  l : b.seq_level_idx_0.toNat < 2 ^ 5
  t : b.seq_tier_0.toNat < 2 ^ 1
  x : b.chroma_subsampling_x.toNat < 2 ^ 1
  y : b.chroma_subsampling_y.toNat < 2 ^ 1
  s : b.chroma_sample_position.toNat < 2 ^ 2
  r : b.reserved.toNat < 2 ^ 3
  d : b.initial_presentation_delay_minus_one.toNat < 2 ^ 4

/-- Bit-field ranges; initialization data only in a version with the field, at most 16 bits of length. -/
structure VpcC.Fits (b : VpcC) : Prop where
  d : b.bit_depth.toNat < 2 ^ 4
  c : b.chroma_sub_sampling.toNat < 2 ^ 3
  r : b.video_full_range_flag.toNat < 2 ^ 1
  n : b.codec_initialization_data.length < 2 ^ 16
  v : b.version = 0#8 → b.codec_initialization_data = []

/-- The mapping has one entry per channel; without the table the default table. -/
structure DOps.Fits (b : DOps) : Prop where
  table : b.channel_mapping_family ≠ 0#8 → b.channel_mapping.length = b.output_channel_count.toNat
  none : b.channel_mapping_family = 0#8 → b.stream_count = 0 ∧ b.coupled_count = 0 ∧ b.channel_mapping = []

end Mp4
