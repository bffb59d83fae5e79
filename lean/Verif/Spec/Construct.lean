import Verif.Model.Construct

/-!
# What a box built from parameters contains

Written from the file format (ISO/IEC 14496-12, 14496-1, 14496-14, 14496-15, QuickTime, AV1/VP/Opus in ISOBMFF), in terms of
the parameters given to the constructor only: for each constructor call the type of the box and its content, as the list of its fields.
A field is a width in bits and a number; it holds the low bits of the number, most significant bit first.
-/

namespace Mp4.Built
open Mp4

/-- Width in bits and value. -/
abbrev Field := Nat × Nat

/-- The bits of a field, most significant first. -/
def fieldBits (f : Field) : List Bool := (List.range f.1).map fun i => f.2.testBit (f.1 - 1 - i)

/-- The bits of a list of fields. -/
def bitsOf (l : List Field) : List Bool := l.flatMap fieldBits

/-- An integer in its full width. -/
def u {w : Nat} (v : BitVec w) : Field := (w, v.toNat)
/-- An integer stored in `n` bits. -/
def un {w : Nat} (n : Nat) (v : BitVec w) : Field := (n, v.toNat)
/-- A flag of one bit. -/
def b1 (b : Bool) : Field := (1, b.toNat)
/-- A signed integer stored in `n` bits: sign bit, then the low `n - 1` bits. -/
def sn {w : Nat} (n : Nat) (v : BitVec w) : List Field := [(1, v.msb.toNat), (n - 1, v.toNat)]
/-- `n` reserved bits. -/
def zero (n : Nat) : Field := (n, 0)
/-- A number of elements in a `w`-bit field. -/
def count {α : Type} (w : Nat) (l : List α) : Field := (w, l.length)
/-- Bytes. -/
def bytes (l : List Byte) : List Field := l.map u
/-- A string and its terminating zero byte. -/
def str (l : List Byte) : List Field := bytes l ++ [(8, 0)]
/-- A four-character code. -/
def code (t : Arr4) : List Field := [u t.b0, u t.b1, u t.b2, u t.b3]
/-- The elements of an array. -/
def arr {w n : Nat} (v : Vector (BitVec w) n) : List Field := v.toList.map u
/-- Version and flags of a full box. -/
def full (version : Byte) (flags : BitVec 32) : List Field := [(8, version.toNat), (24, flags.toNat)]
/-- A time or duration: 32 bits in version 0, 64 bits otherwise. -/
def tm (version : Byte) (v : BitVec 64) : Field := if version = 0#8 then (32, v.toNat) else (64, v.toNat)
/-- A signed time. -/
def stm (version : Byte) (v : BitVec 64) : List Field := if version = 0#8 then sn 32 v else [(64, v.toNat)]
/-- Fields that are present only under a condition. -/
def when (c : Prop) [Decidable c] (l : List Field) : List Field := if c then l else []
/-- An expandable size (14496-1 8.3.3) in four bytes, seven bits each, the first bit of each byte telling whether another follows. -/
def size4 (n : Nat) : List Field :=
  [(1, 1), (7, n / 2 ^ 21), (1, 1), (7, n / 2 ^ 14), (1, 1), (7, n / 2 ^ 7), (1, 0), (7, n)]
/-- A language: three letters, five bits each, as the difference to 0x60. -/
def lang (l : Arr3) : List Field := [(5, l.b0.toNat - 0x60), (5, l.b1.toNat - 0x60), (5, l.b2.toNat - 0x60)]
/-- A parameter set of 14496-15: its length and its bytes. -/
def nal (p : AVCParameterSetParameters) : List Field := count 16 p.nal_unit :: bytes p.nal_unit

/-! ### entries -/

def elstEntry (version : Byte) (e : ElstEntryParameters) : List Field :=
  [tm version e.track_duration] ++ stm version e.media_time ++ [u e.media_rate]
def sttsEntry (e : SttsEntryParameters) : List Field := [u e.sample_count, u e.sample_duration]
def cttsEntry (e : BitVec 32 × BitVec 64) : List Field := u e.1 :: sn 32 e.2
def stscEntry (e : StscEntryParameters) : List Field :=
  [u e.first_chunk, u e.samples_per_chunk, u e.sample_description_index]
def sbgpEntry (e : SbgpEntryParameters) : List Field := [u e.sample_count, u e.group_description_index]
def sdtpSample (e : StdpSampleParameters) : List Field :=
  [un 2 e.is_leading, un 2 e.sample_depends_on, un 2 e.sample_is_depended_on, un 2 e.sample_has_redundancy]
def sidxReference (e : SidxReferenceParameters) : List Field :=
  [b1 e.reference_type, un 31 e.reference_size, u e.subsegument_duration, b1 e.starts_with_sap, un 3 e.sap_type,
   un 28 e.sap_delta_time]
def tfraEntry (p : TfraParameters) (e : TfraEntryParameters) : List Field :=
  [tm p.version e.time, tm p.version e.moof_offset,
   un (8 * (p.length_size_of_traf_num.toNat + 1)) e.traf_number,
   un (8 * (p.length_size_of_trun_num.toNat + 1)) e.trun_number,
   un (8 * (p.length_size_of_sample_num.toNat + 1)) e.sample_number]
def trunEntry (flags : BitVec 32) (e : TrunEntryParameters) : List Field :=
  when (flags.getLsbD 8) [u e.sample_duration] ++ when (flags.getLsbD 9) [u e.sample_size] ++
  when (flags.getLsbD 10) [u e.sample_flags] ++ when (flags.getLsbD 11) (sn 32 e.sample_composition_time_offset)
/-- An entry of `sgpd` begins with its own length if that length was given. -/
def ownLength (n : BitVec 32) : List Field := when (n ≠ 0#32) [u n]
def rollEntry (e : RollDistanceParameters) : List Field := ownLength e.description_length ++ [u e.roll_distance]
def alstEntry (e : AlternativeStartupEntryParameters) : List Field :=
  ownLength e.description_length ++ [u e.roll_count, u e.first_output_sample] ++ e.sample_offsets.map u ++
  e.opts.flatMap fun o => [u o.num_output_samples, u o.num_total_samples]
def rapEntry (e : VisualRandomAccessEntryParameters) : List Field :=
  ownLength e.description_length ++ [b1 e.num_leading_samples_known, un 7 e.num_leading_samples]
def teleEntry (e : TemporalLevelEntryParameters) : List Field :=
  ownLength e.description_length ++ [b1 e.level_independently_decodable, zero 7]

/-! ### descriptors (14496-1 7.2.6) -/

/-- Bytes of the own fields of a descriptor, after tag and size. -/
def ownBytes : DescriptorParameters → Nat
  | .es p _ => 3 + (if p.stream_dependence_flag then 2 else 0) + (if p.url_flag then 1 + p.url_string.length else 0) +
      (if p.ocr_stream_flag then 2 else 0)
  | .decConfig _ _ => 13
  | .decSpecific p => p.data.length
  | .slConfig p => p.data.length

mutual
/-- The size a descriptor declares: its own fields and its sub-descriptors with tag and size (five bytes), unless a size of
the sub-descriptors was given.  The sub-descriptors of a decoder configuration are counted without theirs. -/
def declared : DescriptorParameters → Nat
  | .es p subs => ownBytes (.es p subs) +
      (if p.sub_descriptors_size = 0#32 then below subs else p.sub_descriptors_size.toNat)
  | .decConfig p subs => 13 +
      (if p.sub_descriptors_size = 0#32 then (subs.map fun d => 5 + ownBytes d).sum else p.sub_descriptors_size.toNat)
  | .decSpecific p => p.data.length
  | .slConfig p => p.data.length
/-- The bytes of sub-descriptors. -/
def below : List DescriptorParameters → Nat
  | [] => 0
  | d :: ds => 5 + declared d + below ds
end

/-- Tag, size, own fields.  The sub-descriptors are separate elements of the list given to the box. -/
def descriptor (d : DescriptorParameters) : List Field :=
  match d with
  | .es p _ => [(8, 3)] ++ size4 (declared d) ++
      [u p.ESID, b1 p.stream_dependence_flag, b1 p.url_flag, b1 p.ocr_stream_flag] ++ sn 5 p.stream_priority ++
      when p.stream_dependence_flag [u p.depends_on_esid] ++
      when p.url_flag (count 8 p.url_string :: bytes p.url_string) ++ when p.ocr_stream_flag [u p.OCRESID]
  | .decConfig p _ => [(8, 4)] ++ size4 (declared d) ++ [u p.object_type_indication] ++ sn 6 p.stream_type ++
      [b1 p.upstream, b1 p.reserved, un 24 p.buffer_size_db, u p.max_bitrate, u p.avg_bitrate]
  | .decSpecific p => [(8, 5)] ++ size4 p.data.length ++ bytes p.data
  | .slConfig p => [(8, 6)] ++ size4 p.data.length ++ bytes p.data

/-! ### boxes -/

/-- The type of the box. -/
def type : Construction → BoxType
  | .btrt _ => fourcc "btrt" | .pasp _ => fourcc "pasp" | .fiel _ => fourcc "fiel" | .smhd _ => fourcc "smhd"
  | .vmhd _ => fourcc "vmhd" | .mfhd _ => fourcc "mfhd" | .mfro _ => fourcc "mfro" | .dref _ => fourcc "dref"
  | .stsd _ => fourcc "stsd" | .trex _ => fourcc "trex" | .iods _ => fourcc "iods" | .mvhd _ => fourcc "mvhd"
  | .tkhd _ => fourcc "tkhd" | .mdhd _ => fourcc "mdhd" | .mehd _ => fourcc "mehd" | .tfdt _ => fourcc "tfdt"
  | .elst _ => fourcc "elst" | .sidx _ => fourcc "sidx" | .stts _ => fourcc "stts" | .ctts _ => fourcc "ctts"
  | .stsc _ => fourcc "stsc" | .stco _ => fourcc "stco" | .co64 _ => fourcc "co64" | .stss _ => fourcc "stss"
  | .stsz _ => fourcc "stsz" | .sdtp _ => fourcc "sdtp" | .sbgp _ => fourcc "sbgp" | .tfhd _ => fourcc "tfhd"
  | .tfra _ => fourcc "tfra" | .trun _ => fourcc "trun" | .avcC _ => fourcc "avcC" | .av1C _ => fourcc "av1C"
  | .vpcC _ => fourcc "vpcC" | .dOps _ => fourcc "dOps" | .visual p => p.type | .audio p => p.type
  | .hdlr _ => fourcc "hdlr" | .url _ => fourcc "url " | .urn _ => fourcc "urn " | .emsg _ => fourcc "emsg"
  | .data _ => fourcc "data" | .colr _ => fourcc "colr" | .pssh _ => fourcc "pssh" | .ftyp _ => fourcc "ftyp"
  | .styp _ => fourcc "styp" | .free _ => fourcc "free" | .skip _ => fourcc "skip" | .mdat _ => fourcc "mdat"
  | .unsupported _ => fourcc "unsu" | .esds _ => fourcc "esds" | .sgpd _ => fourcc "sgpd" | .ilstMeta p => p.type
  | .dinf => fourcc "dinf" | .edts => fourcc "edts" | .ilst => fourcc "ilst" | .mdia => fourcc "mdia"
  | .mfra => fourcc "mfra" | .minf => fourcc "minf" | .moof => fourcc "moof" | .moov => fourcc "moov"
  | .mvex => fourcc "mvex" | .schi => fourcc "schi" | .sinf => fourcc "sinf" | .stbl => fourcc "stbl"
  | .traf => fourcc "traf" | .trak => fourcc "trak" | .udta => fourcc "udta" | .wave => fourcc "wave"
  | .metaBox => fourcc "meta" | .urlSelf => fourcc "url " | .urnSelf => fourcc "urn "

/-- The fields of the content of the box. -/
def content : Construction → List Field
  | .btrt p => [u p.decoding_buffer_size, u p.max_bitrate, u p.avg_bitrate]
  | .pasp p => [u p.h_spacing, u p.v_spacing]
  | .fiel p => [u p.field_count, u p.field_ordering]
  | .smhd p => full p.version p.flags ++ [u p.balance, zero 16]
  | .vmhd p => full p.version p.flags ++ [u p.graphicsmode] ++ arr p.opcolor
  | .mfhd p => full p.version p.flags ++ [u p.sequence_number]
  | .mfro p => full p.version p.flags ++ [u p.size]
  | .dref p => full p.version p.flags ++ [u p.entry_count]
  | .stsd p => full p.version p.flags ++ [u p.entry_count]
  | .trex p => full p.version p.flags ++ [u p.track_id, u p.default_sample_description_index,
      u p.default_sample_duration, u p.default_sample_size, u p.default_sample_flags]
  | .iods p => full p.version p.flags ++ [u p.type_tag] ++ size4 p.descriptor_length.toNat ++ [u p.OD_ID,
      u p.OD_profile_level, u p.scene_profile_level, u p.audio_profile_level, u p.video_profile_level,
      u p.graphics_profile_level]
  | .mvhd p => full p.version p.flags ++ [tm p.version p.creation_time, tm p.version p.modification_time, u p.timescale,
      tm p.version p.duration, u p.rate, u p.volume, zero 16, zero 32, zero 32] ++ arr p.matrix ++ arr p.pre_defined ++
      [u p.next_track_id]
  | .tkhd p => full p.version p.flags ++ [tm p.version p.creation_time, tm p.version p.modification_time, u p.track_id,
      zero 32, tm p.version p.duration, zero 32, zero 32, u p.layer, u p.alternate_group, u p.volume, zero 16] ++
      arr p.matrix ++ [u p.width, u p.height]
  | .mdhd p => full p.version p.flags ++ [tm p.version p.creation_time, tm p.version p.modification_time, u p.timescale,
      tm p.version p.duration, b1 p.pad] ++ lang p.language ++ [u p.pre_defined]
  | .mehd p => full p.version p.flags ++ [tm p.version p.fragment_duration]
  | .tfdt p => full p.version p.flags ++ [tm p.version p.base_media_decode_time]
  | .elst p => full p.version p.flags ++ [count 32 p.entries] ++ p.entries.flatMap (elstEntry p.version)
  | .sidx p => full p.version p.flags ++ [u p.reference_id, u p.timescale, tm p.version p.earliest_presentation_time,
      tm p.version p.first_offset, zero 16, count 16 p.references] ++ p.references.flatMap sidxReference
  | .stts p => full p.version p.flags ++ [count 32 p.entries] ++ p.entries.flatMap sttsEntry
  | .ctts p => full p.version p.flags ++ [count 32 p.entries] ++ p.entries.flatMap cttsEntry
  | .stsc p => full p.version p.flags ++ [count 32 p.entries] ++ p.entries.flatMap stscEntry
  | .stco p => full p.version p.flags ++ [count 32 p.chunk_offsets] ++ p.chunk_offsets.map u
  | .co64 p => full p.version p.flags ++ [count 32 p.chunk_offsets] ++ p.chunk_offsets.map u
  | .stss p => full p.version p.flags ++ [count 32 p.sample_numbers] ++ p.sample_numbers.map u
  | .stsz p => full p.version p.flags ++ [u p.sample_size, count 32 p.entry_sizes] ++
      when (p.sample_size = 0#32) (p.entry_sizes.map u)
  | .sdtp p => full 0 0 ++ p.samples.flatMap sdtpSample
  | .sbgp p => full p.version p.flags ++ code p.grouping_type ++
      when (p.version ≠ 0#8) [u p.grouping_type_parameter] ++ [count 32 p.entries] ++ p.entries.flatMap sbgpEntry
  | .tfhd p => full p.version p.flags ++ [u p.track_id] ++ when (p.flags.getLsbD 0) [u p.base_data_offset] ++
      when (p.flags.getLsbD 1) [u p.sample_description_index] ++
      when (p.flags.getLsbD 3) [u p.default_sample_duration] ++
      when (p.flags.getLsbD 4) [u p.default_sample_size] ++ when (p.flags.getLsbD 5) [u p.default_sample_flags]
  | .tfra p => full p.version p.flags ++ [u p.track_id, zero 26, un 2 p.length_size_of_traf_num,
      un 2 p.length_size_of_trun_num, un 2 p.length_size_of_sample_num, count 32 p.entries] ++
      p.entries.flatMap (tfraEntry p)
  | .trun p => full p.version p.flags ++ [count 32 p.entries] ++ when (p.flags.getLsbD 0) [u p.data_offset] ++
      when (p.flags.getLsbD 2) [u p.first_sample_flags] ++ p.entries.flatMap (trunEntry p.flags)
  | .avcC p => [u p.configuration_version, u p.profile, u p.profile_compatibility, u p.level, (6, 0b111111),
      un 2 p.length_size_minus_one, (3, 0b111), count 5 p.sequence_parameter_sets] ++
      p.sequence_parameter_sets.flatMap nal ++ [count 8 p.picture_parameter_sets] ++
      p.picture_parameter_sets.flatMap nal ++
      when p.high_profile_fields_enabled ([(6, 0b111111), un 2 p.chroma_format, (5, 0b11111),
        un 3 p.bit_depth_luma_minus8, (5, 0b11111), un 3 p.bit_depth_chroma_minus8,
        count 8 p.sequence_parameter_sets_ext] ++ p.sequence_parameter_sets_ext.flatMap nal)
  | .av1C p => [un 1 p.marker, un 7 p.version, un 3 p.seq_profile, un 5 p.seq_level_idx_0, un 1 p.seq_tier_0,
      b1 p.high_bitdepth, b1 p.twelve_bit, b1 p.monochrome, un 1 p.chroma_subsampling_x, un 1 p.chroma_subsampling_y,
      un 2 p.chroma_sample_position, zero 3, b1 p.initial_presentation_delay_present,
      un 4 p.initial_presentation_delay_minus_one] ++ bytes p.config_OBUs
  | .vpcC p => full p.version p.flags ++ [u p.profile, u p.level, un 4 p.bit_depth, un 3 p.chroma_sub_sampling,
      un 1 p.video_full_range_flag, u p.colour_primaries, u p.transfer_characteristics, u p.matrix_coefficients] ++
      when (p.version ≠ 0#8) (count 16 p.codec_initialization_data :: bytes p.codec_initialization_data)
  | .dOps p => [u p.version, u p.output_channel_count, u p.pre_skip, u p.input_sample_rate, u p.output_gain,
      u p.channel_mapping_family] ++
      when (p.channel_mapping_family ≠ 0#8) ([u p.channel_mapping_table.stream_count,
        u p.channel_mapping_table.coupled_count] ++ bytes p.channel_mapping_table.channel_mapping)
  | .visual p => [zero 48, u p.data_reference_index, u p.pre_defined, zero 16] ++ arr p.pre_defined2 ++ [u p.width,
      u p.height, u p.horizresolution, u p.vertresolution, zero 32, u p.frame_count] ++ arr p.compressorname ++
      [u p.depth, u p.pre_defined3]
  | .audio p => [zero 48, u p.data_reference_index, u p.entry_version, zero 48, u p.channel_count, u p.sample_size,
      u p.pre_defined, zero 16, u p.sample_rate] ++ when p.is_quick_time_compatible (bytes p.quick_time_data)
  | .hdlr p => full p.version p.flags ++ [u p.pre_defined] ++ code p.handler_type ++ [zero 32, zero 32, zero 32] ++
      str p.name ++ bytes p.padding
  | .url p => full p.version p.flags ++ when (p.flags.getLsbD 0 = false) (str p.location)
  | .urn p => full p.version p.flags ++ when (p.flags.getLsbD 0 = false) (str p.name ++ str p.location)
  | .emsg p => full p.version p.flags ++
      (if p.version = 0#8 then
        str p.scheme_uri ++ str p.value ++ [u p.timescale, un 32 p.presentation_time, u p.event_duration, u p.id]
      else
        [u p.timescale, u p.presentation_time, u p.event_duration, u p.id] ++ str p.scheme_uri ++ str p.value) ++
      bytes p.message_data
  | .data p => [u p.data_type, u p.data_lang] ++ bytes p.data
  | .colr p => code p.colour_type ++
      (if p.colour_type = fourcc "nclx" then
        [u p.colour_primaries, u p.transfer_characteristics, u p.matrix_coefficients, b1 p.full_range_flag, zero 7]
      else if p.colour_type = fourcc "rICC" ∨ p.colour_type = fourcc "prof" then bytes p.profile
      else bytes p.unknown)
  | .pssh p => full p.version p.flags ++ arr p.system_id ++
      when (p.version ≠ 0#8) (count 32 p.kids :: p.kids.flatMap fun k => arr k.kid) ++ [count 32 p.data] ++ bytes p.data
  | .ftyp p => code p.major_brand ++ [u p.minor_version] ++ p.compatible_brands.flatMap code
  | .styp p => code p.major_brand ++ [u p.minor_version] ++ p.compatible_brands.flatMap code
  | .free p => bytes p.data
  | .skip p => bytes p.data
  | .mdat p => bytes p.data
  | .unsupported p => bytes p.data
  | .esds p => full 0 0 ++ p.descriptors.flatMap descriptor
  | .sgpd p => full p.version p.flags ++ code p.grouping_type ++
      [u (if p.version = 1#8 then p.default_length else p.default_sample_description_index)] ++
      (if p.grouping_type = fourcc "roll" ∨ p.grouping_type = fourcc "prol" then
        count 32 p.roll_distances :: p.roll_distances.flatMap rollEntry
      else if p.grouping_type = fourcc "alst" then
        count 32 p.alternative_startup_entries :: p.alternative_startup_entries.flatMap alstEntry
      else if p.grouping_type = fourcc "rap " then
        count 32 p.visual_random_access_entries :: p.visual_random_access_entries.flatMap rapEntry
      else if p.grouping_type = fourcc "tele" then
        count 32 p.temporal_level_entries :: p.temporal_level_entries.flatMap teleEntry
      else [])
  | .metaBox => full 0 0
  | .urlSelf => full 0 1
  | .urnSelf => full 0 1
  | .ilstMeta _ | .dinf | .edts | .ilst | .mdia | .mfra | .minf | .moof | .moov | .mvex | .schi | .sinf | .stbl
  | .traf | .trak | .udta | .wave => []

/-- Which parameters a constructor refuses (by an exception): QuickTime data without the QuickTime flag, and, for an entry
that is not inside a `wave` box, a sound description version 1 without exactly 16 bytes of QuickTime data or a version 2
without exactly 36. -/
def Refused : Construction → Prop
  | .audio p =>
    (p.is_quick_time_compatible = false ∧ p.quick_time_data ≠ []) ∨
    (p.under_wave = false ∧ p.entry_version = 1 ∧ p.quick_time_data.length ≠ 16) ∨
    (p.under_wave = false ∧ p.entry_version = 2 ∧ p.quick_time_data.length ≠ 36)
  | _ => False

/-- The AVC profiles (`profile_idc`) this library allows the high profile fields with. -/
def highProfile (p : Byte) : Prop := p.toNat ∈ [86, 100, 110, 118, 122, 128, 138, 144, 244]

/-- Which parameters make a box whose content cannot be written (an exception): `tfra` with entries and a length field of more
than two bits, an ES descriptor with a URL of more than 255 bytes, high profile fields without a high profile. -/
def Unwritable : Construction → Prop
  | .tfra p => p.entries ≠ [] ∧
      (4 ≤ p.length_size_of_traf_num.toNat ∨ 4 ≤ p.length_size_of_trun_num.toNat ∨ 4 ≤ p.length_size_of_sample_num.toNat)
  | .esds p => ∃ q subs, .es q subs ∈ p.descriptors ∧ q.url_flag = true ∧ 255 < q.url_string.length
  | .avcC p => p.high_profile_fields_enabled = true ∧ ¬ highProfile p.profile
  | _ => False

/-- The letters of the language of a media header have a five-bit difference to 0x60. -/
def Letters : Construction → Prop
  | .mdhd p => ∀ c ∈ [p.language.b0, p.language.b1, p.language.b2], 0x60 ≤ c.toNat ∧ c.toNat < 0x80
  | _ => True

end Mp4.Built
