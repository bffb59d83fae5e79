import Verif.Model.Tree

/-!
# The parameter constructors of the box classes

Generated from the text of the parameter structures (include/shiguredo/mp4/box/*.hpp) and of the constructors
(src/box/*.cpp): members in the order and with the default values of the structure, initialisers as in the member
initialiser list.  `std::uint8_t` is `Byte`, other integers (signed ones too) are bit vectors of their width,
`std::string` and `std::vector<std::uint8_t>` are byte lists, `std::array<std::uint8_t, 4>` (brands, grouping types, box
types) is `Arr4`.

Simplification: where the C++ structure holds a vector of entry objects, each built from its own parameter structure,
the vector here holds those parameter structures and the constructor of the box builds the entries from them.
-/

namespace Mp4

/-- The members of `FullBox` before a constructor body runs (include/shiguredo/mp4/box.hpp:73-75). -/
def FullBox.zero : FullBox := ⟨0, 0, 0, 0⟩

/-- `setVersion(params.version); setFlags(params.flags);`, the body of the constructors of full boxes (for example
src/box/trex.cpp:31-32, with src/box.cpp:121-123 and 140-144). -/
def FullBox.new (version : Byte) (flags : BitVec 32) : FullBox := (FullBox.zero.setVersion version).setFlags flags

/-- `ElstEntryParameters` (include/shiguredo/mp4/box/elst.hpp:20-24). -/
structure ElstEntryParameters where
  track_duration : BitVec 64
  media_time : BitVec 64 := 0#64
  media_rate : BitVec 32 := 1#32 <<< 16

/-- The constructor `ElstEntry(const ElstEntryParameters&)` (src/box/elst.cpp:23-24). -/
def ElstEntry.new (p : ElstEntryParameters) : ElstEntry where
  track_duration := p.track_duration
  media_time := p.media_time
  media_rate := p.media_rate

/-- `SttsEntryParameters` (include/shiguredo/mp4/box/stts.hpp:21-24). -/
structure SttsEntryParameters where
  sample_count : BitVec 32
  sample_duration : BitVec 32

/-- The constructor `SttsEntry(const SttsEntryParameters&)` (src/box/stts.cpp:70-71). -/
def SttsEntry.new (p : SttsEntryParameters) : SttsEntry where
  sample_count := p.sample_count
  sample_duration := p.sample_duration

/-- `StscEntryParameters` (include/shiguredo/mp4/box/stsc.hpp:21-25). -/
structure StscEntryParameters where
  first_chunk : BitVec 32
  samples_per_chunk : BitVec 32
  sample_description_index : BitVec 32 := 1#32

/-- The constructor `StscEntry(const StscEntryParameters&)` (src/box/stsc.cpp:70-73). -/
def StscEntry.new (p : StscEntryParameters) : StscEntry where
  first_chunk := p.first_chunk
  samples_per_chunk := p.samples_per_chunk
  sample_description_index := p.sample_description_index

/-- `SbgpEntryParameters` (include/shiguredo/mp4/box/sbgp.hpp:21-24). -/
structure SbgpEntryParameters where
  sample_count : BitVec 32
  group_description_index : BitVec 32

/-- The constructor `SbgpEntry(const SbgpEntryParameters&)` (src/box/sbgp.cpp:21-22). -/
def SbgpEntry.new (p : SbgpEntryParameters) : SbgpEntry where
  sample_count := p.sample_count
  group_description_index := p.group_description_index

/-- `StdpSampleParameters` (include/shiguredo/mp4/box/sdtp.hpp:20-25). -/
structure StdpSampleParameters where
  is_leading : Byte
  sample_depends_on : Byte
  sample_is_depended_on : Byte
  sample_has_redundancy : Byte

/-- The constructor `SdtpSample(const StdpSampleParameters&)` (src/box/sdtp.cpp:67-71). -/
def SdtpSample.new (p : StdpSampleParameters) : SdtpSample where
  is_leading := p.is_leading
  sample_depends_on := p.sample_depends_on
  sample_is_depended_on := p.sample_is_depended_on
  sample_has_redundancy := p.sample_has_redundancy

/-- `RollDistanceParameters` (include/shiguredo/mp4/box/sgpd.hpp:21-24). -/
structure RollDistanceParameters where
  description_length : BitVec 32 := 0#32
  roll_distance : BitVec 16

/-- The constructor `RollDistance(const RollDistanceParameters&)` (src/box/sgpd.cpp:217-220). -/
def RollDistance.new (p : RollDistanceParameters) : RollDistance where
  description_length := p.description_length
  roll_distance := p.roll_distance
  with_length := decide (p.description_length > 0#32)

/-- `AlternativeStartupEntryOptParameters` (include/shiguredo/mp4/box/sgpd.hpp:43-46). -/
structure AlternativeStartupEntryOptParameters where
  num_output_samples : BitVec 16
  num_total_samples : BitVec 16

/-- The constructor `AlternativeStartupEntryOpt(const AlternativeStartupEntryOptParameters&)` (src/box/sgpd.cpp:250-251). -/
def StartupOpt.new (p : AlternativeStartupEntryOptParameters) : StartupOpt where
  num_output_samples := p.num_output_samples
  num_total_samples := p.num_total_samples

/-- `AlternativeStartupEntryParameters` (include/shiguredo/mp4/box/sgpd.hpp:63-69). -/
structure AlternativeStartupEntryParameters where
  description_length : BitVec 32 := 0#32
  roll_count : BitVec 16
  first_output_sample : BitVec 16
  sample_offsets : List (BitVec 32)
  opts : List AlternativeStartupEntryOptParameters := []

/-- The constructor `AlternativeStartupEntry(const AlternativeStartupEntryParameters&)` (src/box/sgpd.cpp:267-274). -/
def StartupEntry.new (p : AlternativeStartupEntryParameters) : StartupEntry where
  description_length := p.description_length
  roll_count := p.roll_count
  first_output_sample := p.first_output_sample
  sample_offsets := p.sample_offsets
  opts := p.opts.map StartupOpt.new
  with_length := decide (p.description_length > 0#32)

/-- `VisualRandomAccessEntryParameters` (include/shiguredo/mp4/box/sgpd.hpp:91-95). -/
structure VisualRandomAccessEntryParameters where
  description_length : BitVec 32 := 0#32
  num_leading_samples_known : Bool
  num_leading_samples : Byte

/-- The constructor `VisualRandomAccessEntry(const VisualRandomAccessEntryParameters&)` (src/box/sgpd.cpp:339-344). -/
def RapEntry.new (p : VisualRandomAccessEntryParameters) : RapEntry where
  description_length := p.description_length
  num_leading_samples_known := p.num_leading_samples_known
  num_leading_samples := p.num_leading_samples
  with_length := decide (p.description_length > 0#32)

/-- `TemporalLevelEntryParameters` (include/shiguredo/mp4/box/sgpd.hpp:115-118). -/
structure TemporalLevelEntryParameters where
  description_length : BitVec 32 := 0#32
  level_independently_decodable : Bool

/-- The constructor `TemporalLevelEntry(const TemporalLevelEntryParameters&)` (src/box/sgpd.cpp:380-384). Reserved members keep the initialisers of the class definition. -/
def TeleEntry.new (p : TemporalLevelEntryParameters) : TeleEntry where
  description_length := p.description_length
  level_independently_decodable := p.level_independently_decodable
  with_length := decide (p.description_length > 0#32)
  reserved := 0

/-- `SidxReferenceParameters` (include/shiguredo/mp4/box/sidx.hpp:20-27). -/
structure SidxReferenceParameters where
  reference_type : Bool
  reference_size : BitVec 32
  subsegument_duration : BitVec 32
  starts_with_sap : Bool
  sap_type : Byte
  sap_delta_time : BitVec 32

/-- The constructor `SidxReference(const SidxReferenceParameters&)` (src/box/sidx.cpp:90-96). -/
def SidxReference.new (p : SidxReferenceParameters) : SidxReference where
  reference_type := p.reference_type
  reference_size := p.reference_size
  subsegument_duration := p.subsegument_duration
  starts_with_sap := p.starts_with_sap
  sap_type := p.sap_type
  sap_delta_time := p.sap_delta_time

/-- `TfraEntryParameters` (include/shiguredo/mp4/box/tfra.hpp:20-26). -/
structure TfraEntryParameters where
  time : BitVec 64
  moof_offset : BitVec 64
  traf_number : BitVec 32
  trun_number : BitVec 32
  sample_number : BitVec 32

/-- The constructor `TfraEntry(const TfraEntryParameters&)` (src/box/tfra.cpp:94-99). -/
def TfraEntry.new (p : TfraEntryParameters) : TfraEntry where
  time := p.time
  moof_offset := p.moof_offset
  traf_number := p.traf_number
  trun_number := p.trun_number
  sample_number := p.sample_number

/-- `TrunEntryParameters` (include/shiguredo/mp4/box/trun.hpp:20-25). -/
structure TrunEntryParameters where
  sample_duration : BitVec 32 := 0#32
  sample_size : BitVec 32 := 0#32
  sample_flags : BitVec 32 := 0#32
  sample_composition_time_offset : BitVec 64 := 0#64

/-- The constructor `TrunEntry(const TrunEntryParameters&)` (src/box/trun.cpp:102-106). -/
def TrunEntry.new (p : TrunEntryParameters) : TrunEntry where
  sample_duration := p.sample_duration
  sample_size := p.sample_size
  sample_flags := p.sample_flags
  sample_composition_time_offset := p.sample_composition_time_offset

/-- `DOpsChannelMappingTableParameters` (include/shiguredo/mp4/box/dOps.hpp:20-24). -/
structure DOpsChannelMappingTableParameters where
  stream_count : Byte := 0#8
  coupled_count : Byte := 0#8
  channel_mapping : List Byte := []

/-- `AVCParameterSetParameters` (include/shiguredo/mp4/box/avc.hpp:42-44). -/
structure AVCParameterSetParameters where
  nal_unit : List Byte

/-- The constructor `AVCParameterSet(const AVCParameterSetParameters&)` (src/box/avc.cpp:48): the class holds the NAL unit only. -/
def AVCParameterSet.new (p : AVCParameterSetParameters) : List Byte := p.nal_unit

/-- `PsshKIDParameters` (include/shiguredo/mp4/box/pssh.hpp:21-23). -/
structure PsshKIDParameters where
  kid : Vector Byte 16

/-- The constructor `PsshKID(const PsshKIDParameters&)` (src/box/pssh.cpp:21): the class holds the key id only. -/
def PsshKID.new (p : PsshKIDParameters) : Vector Byte 16 := p.kid

/-- The constructor `CttsEntry(sample_count, sample_offset)` (src/box/ctts.cpp:23-24); it has no parameter structure, the pair holds its
two arguments. -/
def CttsEntry.new (p : BitVec 32 × BitVec 64) : CttsEntry where
  sample_count := p.1
  sample_offset := p.2

/-- `ESDescriptorParameters` (include/shiguredo/mp4/box/esds.hpp:41-51). -/
structure ESDescriptorParameters where
  sub_descriptors_size : BitVec 32 := 0#32
  ESID : BitVec 16 := 0#16
  stream_dependence_flag : Bool := false
  url_flag : Bool := false
  ocr_stream_flag : Bool := false
  stream_priority : BitVec 8 := 0#8
  depends_on_esid : BitVec 16 := 0#16
  url_string : List Byte := []
  OCRESID : BitVec 16 := 0#16

/-- `DecoderConfigDescriptorParameters` (include/shiguredo/mp4/box/esds.hpp:79-88). -/
structure DecoderConfigDescriptorParameters where
  sub_descriptors_size : BitVec 32 := 0#32
  object_type_indication : Byte
  stream_type : BitVec 8
  upstream : Bool := false
  reserved : Bool := true
  buffer_size_db : BitVec 32
  max_bitrate : BitVec 32
  avg_bitrate : BitVec 32

/-- `DecSpecificInfoParameters` (include/shiguredo/mp4/box/esds.hpp:115-117). -/
structure DecSpecificInfoParameters where
  data : List Byte

/-- `SLConfigDescrParameters` (include/shiguredo/mp4/box/esds.hpp:135-137). -/
structure SLConfigDescrParameters where
  data : List Byte

/-- The constructor `ESDescriptor(const ESDescriptorParameters&)` (src/box/esds.cpp:25-36). -/
def ESFields.new (p : ESDescriptorParameters) : ESFields where
  sub_descriptors_size := p.sub_descriptors_size
  ESID := p.ESID
  stream_dependence_flag := p.stream_dependence_flag
  url_flag := p.url_flag
  ocr_stream_flag := p.ocr_stream_flag
  stream_priority := p.stream_priority
  depends_on_esid := p.depends_on_esid
  url_string := p.url_string
  OCRESID := p.OCRESID

/-- The constructor `DecoderConfigDescriptor(const DecoderConfigDescriptorParameters&)` (src/box/esds.cpp:146-156). -/
def DecConfigFields.new (p : DecoderConfigDescriptorParameters) : DecConfigFields where
  sub_descriptors_size := p.sub_descriptors_size
  object_type_indication := p.object_type_indication
  stream_type := p.stream_type
  upstream := p.upstream
  reserved := p.reserved
  buffer_size_db := p.buffer_size_db
  max_bitrate := p.max_bitrate
  avg_bitrate := p.avg_bitrate

/-- A descriptor as a caller builds it: the constructor of its class, then one `addSubDescriptor` call per element of
`subs`, in this order (src/box/esds.cpp:25-36, 146-156, 214-216, 250-252, 350-356). -/
inductive DescriptorParameters where
  | es (p : ESDescriptorParameters) (subs : List DescriptorParameters)
  | decConfig (p : DecoderConfigDescriptorParameters) (subs : List DescriptorParameters)
  | decSpecific (p : DecSpecificInfoParameters)
  | slConfig (p : SLConfigDescrParameters)

mutual
/-- The descriptor object (the constructors and `addSubDescriptor`, src/box/esds.cpp:25-36, 146-156, 214-216, 250-252,
350-356). -/
def Descriptor.new : DescriptorParameters → Descriptor
  | .es p subs => .es (ESFields.new p) (Descriptor.newList subs)
  | .decConfig p subs => .decConfig (DecConfigFields.new p) (Descriptor.newList subs)
  | .decSpecific p => .decSpecific p.data
  | .slConfig p => .slConfig p.data
/-- The objects of a vector of descriptors. -/
def Descriptor.newList : List DescriptorParameters → List Descriptor
  | [] => []
  | d :: ds => Descriptor.new d :: Descriptor.newList ds
end

/-- `BtrtParameters` (include/shiguredo/mp4/box/btrt.hpp:12-16). -/
structure BtrtParameters where
  decoding_buffer_size : BitVec 32
  max_bitrate : BitVec 32
  avg_bitrate : BitVec 32

/-- The constructor `Btrt(const BtrtParameters&)` (src/box/btrt.cpp:21-26). -/
def Btrt.new (p : BtrtParameters) : Btrt where
  decoding_buffer_size := p.decoding_buffer_size
  max_bitrate := p.max_bitrate
  avg_bitrate := p.avg_bitrate

/-- `PixelAspectRatioParameters` (include/shiguredo/mp4/box/pixel_aspect_ratio.hpp:12-15). -/
structure PixelAspectRatioParameters where
  h_spacing : BitVec 32 := 1#32
  v_spacing : BitVec 32 := 1#32

/-- The constructor `PixelAspectRatio(const PixelAspectRatioParameters&)` (src/box/pixel_aspect_ratio.cpp:25-28). -/
def Pasp.new (p : PixelAspectRatioParameters) : Pasp where
  h_spacing := p.h_spacing
  v_spacing := p.v_spacing

/-- `FielParameters` (include/shiguredo/mp4/box/fiel.hpp:12-15). -/
structure FielParameters where
  field_count : Byte := 1#8
  field_ordering : Byte := 0#8

/-- The constructor `Fiel(const FielParameters&)` (src/box/fiel.cpp:21-23). -/
def Fiel.new (p : FielParameters) : Fiel where
  field_count := p.field_count
  field_ordering := p.field_ordering

/-- `SmhdParameters` (include/shiguredo/mp4/box/smhd.hpp:12-16). -/
structure SmhdParameters where
  version : Byte := 0#8
  flags : BitVec 32 := 0x000000#32
  balance : BitVec 16 := 0#16

/-- The constructor `Smhd(const SmhdParameters&)` (src/box/smhd.cpp:25-29). Reserved members keep the initialisers of the class definition. -/
def Smhd.new (p : SmhdParameters) : Smhd where
  toFullBox := FullBox.new p.version p.flags
  balance := p.balance
  reserved := 0

/-- `VmhdParameters` (include/shiguredo/mp4/box/vmhd.hpp:13-18). -/
structure VmhdParameters where
  version : Byte := 0#8
  flags : BitVec 32 := 0x000000#32
  graphicsmode : BitVec 16 := 0#16
  opcolor : Vector (BitVec 16) 3 := #v[0#16, 0#16, 0#16]

/-- The constructor `Vmhd(const VmhdParameters&)` (src/box/vmhd.cpp:26-30). -/
def Vmhd.new (p : VmhdParameters) : Vmhd where
  toFullBox := FullBox.new p.version p.flags
  graphicsmode := p.graphicsmode
  opcolor := p.opcolor

/-- `MfhdParameters` (include/shiguredo/mp4/box/mfhd.hpp:12-16). -/
structure MfhdParameters where
  version : Byte := 0#8
  flags : BitVec 32 := 0x000000#32
  sequence_number : BitVec 32

/-- The constructor `Mfhd(const MfhdParameters&)` (src/box/mfhd.cpp:25-29). -/
def Mfhd.new (p : MfhdParameters) : Mfhd where
  toFullBox := FullBox.new p.version p.flags
  sequence_number := p.sequence_number

/-- `MfroParameters` (include/shiguredo/mp4/box/mfro.hpp:12-16). -/
structure MfroParameters where
  version : Byte := 0#8
  flags : BitVec 32 := 0x000000#32
  size : BitVec 32

/-- The constructor `Mfro(const MfroParameters&)` (src/box/mfro.cpp:25-29). -/
def Mfro.new (p : MfroParameters) : Mfro where
  toFullBox := FullBox.new p.version p.flags
  size := p.size

/-- `DrefParameters` (include/shiguredo/mp4/box/dref.hpp:12-16). -/
structure DrefParameters where
  version : Byte := 0#8
  flags : BitVec 32 := 0x000000#32
  entry_count : BitVec 32

/-- The constructor `Dref(const DrefParameters&)` (src/box/dref.cpp:25-29). -/
def Dref.new (p : DrefParameters) : Dref where
  toFullBox := FullBox.new p.version p.flags
  entry_count := p.entry_count

/-- `StsdParameters` (include/shiguredo/mp4/box/stsd.hpp:12-16). -/
structure StsdParameters where
  version : Byte := 0#8
  flags : BitVec 32 := 0x000000#32
  entry_count : BitVec 32

/-- The constructor `Stsd(const StsdParameters&)` (src/box/stsd.cpp:25-29). -/
def Stsd.new (p : StsdParameters) : Stsd where
  toFullBox := FullBox.new p.version p.flags
  entry_count := p.entry_count

/-- `TrexParameters` (include/shiguredo/mp4/box/trex.hpp:12-20). -/
structure TrexParameters where
  version : Byte := 0#8
  flags : BitVec 32 := 0x000000#32
  track_id : BitVec 32
  default_sample_description_index : BitVec 32
  default_sample_duration : BitVec 32
  default_sample_size : BitVec 32
  default_sample_flags : BitVec 32

/-- The constructor `Trex(const TrexParameters&)` (src/box/trex.cpp:25-34). -/
def Trex.new (p : TrexParameters) : Trex where
  toFullBox := FullBox.new p.version p.flags
  track_id := p.track_id
  default_sample_description_index := p.default_sample_description_index
  default_sample_duration := p.default_sample_duration
  default_sample_size := p.default_sample_size
  default_sample_flags := p.default_sample_flags

/-- `IodsParameters` (include/shiguredo/mp4/box/iods.hpp:12-23). -/
structure IodsParameters where
  version : Byte := 0#8
  flags : BitVec 32 := 0x000000#32
  type_tag : Byte
  descriptor_length : BitVec 32 := 7#32
  OD_ID : BitVec 16
  OD_profile_level : Byte
  scene_profile_level : Byte
  audio_profile_level : Byte
  video_profile_level : Byte
  graphics_profile_level : Byte

/-- The constructor `Iods(const IodsParameters&)` (src/box/iods.cpp:25-37). -/
def Iods.new (p : IodsParameters) : Iods where
  toFullBox := FullBox.new p.version p.flags
  type_tag := p.type_tag
  descriptor_length := p.descriptor_length
  od_id := p.OD_ID
  od_profile_level := p.OD_profile_level
  scene_profile_level := p.scene_profile_level
  audio_profile_level := p.audio_profile_level
  video_profile_level := p.video_profile_level
  graphics_profile_level := p.graphics_profile_level

/-- `MvhdParameters` (include/shiguredo/mp4/box/mvhd.hpp:13-25). -/
structure MvhdParameters where
  version : Byte := 0#8
  flags : BitVec 32 := 0x000000#32
  creation_time : BitVec 64
  modification_time : BitVec 64
  timescale : BitVec 32 := 600#32
  duration : BitVec 64
  rate : BitVec 32 := 1#32 <<< 16
  volume : BitVec 16 := 256#16
  matrix : Vector (BitVec 32) 9 := #v[1#32 <<< 16, 0#32, 0#32, 0#32, 1#32 <<< 16, 0#32, 0#32, 0#32, 1#32 <<< 30]
  pre_defined : Vector (BitVec 32) 6 := #v[0#32, 0#32, 0#32, 0#32, 0#32, 0#32]
  next_track_id : BitVec 32

/-- The constructor `Mvhd(const MvhdParameters&)` (src/box/mvhd.cpp:28-41). Reserved members keep the initialisers of the class definition. -/
def Mvhd.new (p : MvhdParameters) : Mvhd where
  toFullBox := FullBox.new p.version p.flags
  creation_time := p.creation_time
  modification_time := p.modification_time
  timescale := p.timescale
  duration := p.duration
  rate := p.rate
  volume := p.volume
  matrix := p.matrix
  pre_defined := p.pre_defined
  next_track_id := p.next_track_id
  reserved := 0
  reserved2 := 0
  reserved3 := 0

/-- `TkhdParameters` (include/shiguredo/mp4/box/tkhd.hpp:13-26). -/
structure TkhdParameters where
  version : Byte := 0#8
  flags : BitVec 32 := 0x000000#32
  creation_time : BitVec 64
  modification_time : BitVec 64
  track_id : BitVec 32
  duration : BitVec 64
  layer : BitVec 16 := 0#16
  alternate_group : BitVec 16 := 0#16
  volume : BitVec 16 := 256#16
  matrix : Vector (BitVec 32) 9 := #v[1#32 <<< 16, 0#32, 0#32, 0#32, 1#32 <<< 16, 0#32, 0#32, 0#32, 1#32 <<< 30]
  width : BitVec 32 := 0#32
  height : BitVec 32 := 0#32

/-- The constructor `Tkhd(const TkhdParameters&)` (src/box/tkhd.cpp:28-42). Reserved members keep the initialisers of the class definition. -/
def Tkhd.new (p : TkhdParameters) : Tkhd where
  toFullBox := FullBox.new p.version p.flags
  creation_time := p.creation_time
  modification_time := p.modification_time
  track_id := p.track_id
  duration := p.duration
  layer := p.layer
  alternate_group := p.alternate_group
  volume := p.volume
  matrix := p.matrix
  width := p.width
  height := p.height
  reserved := 0
  reserved2 := 0
  reserved3 := 0
  reserved4 := 0

/-- `MdhdParameters` (include/shiguredo/mp4/box/mdhd.hpp:13-23). -/
structure MdhdParameters where
  version : Byte := 0#8
  flags : BitVec 32 := 0x000000#32
  creation_time : BitVec 64
  modification_time : BitVec 64
  timescale : BitVec 32
  duration : BitVec 64
  pad : Bool := false
  language : Arr3 := ⟨0x75#8, 0x6e#8, 0x64#8⟩
  pre_defined : BitVec 16 := 0#16

/-- The constructor `Mdhd(const MdhdParameters&)` (src/box/mdhd.cpp:28-39). -/
def Mdhd.new (p : MdhdParameters) : Mdhd where
  toFullBox := FullBox.new p.version p.flags
  creation_time := p.creation_time
  modification_time := p.modification_time
  timescale := p.timescale
  duration := p.duration
  pad := p.pad
  language := p.language
  pre_defined := p.pre_defined

/-- `MehdParameters` (include/shiguredo/mp4/box/mehd.hpp:12-16). -/
structure MehdParameters where
  version : Byte := 0#8
  flags : BitVec 32 := 0x000000#32
  fragment_duration : BitVec 64

/-- The constructor `Mehd(const MehdParameters&)` (src/box/mehd.cpp:25-29). -/
def Mehd.new (p : MehdParameters) : Mehd where
  toFullBox := FullBox.new p.version p.flags
  fragment_duration := p.fragment_duration

/-- `TfdtParameters` (include/shiguredo/mp4/box/tfdt.hpp:12-16). -/
structure TfdtParameters where
  version : Byte := 0#8
  flags : BitVec 32 := 0x000000#32
  base_media_decode_time : BitVec 64

/-- The constructor `Tfdt(const TfdtParameters&)` (src/box/tfdt.cpp:25-29). -/
def Tfdt.new (p : TfdtParameters) : Tfdt where
  toFullBox := FullBox.new p.version p.flags
  base_media_decode_time := p.base_media_decode_time

/-- `ElstParameters` (include/shiguredo/mp4/box/elst.hpp:45-49). -/
structure ElstParameters where
  version : Byte := 0#8
  flags : BitVec 32 := 0x000000#32
  entries : List ElstEntryParameters

/-- The constructor `Elst(const ElstParameters&)` (src/box/elst.cpp:57-61). -/
def Elst.new (p : ElstParameters) : Elst where
  toFullBox := FullBox.new p.version p.flags
  entries := p.entries.map ElstEntry.new

/-- `SidxParameters` (include/shiguredo/mp4/box/sidx.hpp:48-56). -/
structure SidxParameters where
  version : Byte := 0#8
  flags : BitVec 32 := 0x000000#32
  reference_id : BitVec 32
  timescale : BitVec 32
  earliest_presentation_time : BitVec 64
  first_offset : BitVec 64
  references : List SidxReferenceParameters

/-- The constructor `Sidx(const SidxParameters&)` (src/box/sidx.cpp:29-38). Reserved members keep the initialisers of the class definition. -/
def Sidx.new (p : SidxParameters) : Sidx where
  toFullBox := FullBox.new p.version p.flags
  reference_id := p.reference_id
  timescale := p.timescale
  earliest_presentation_time := p.earliest_presentation_time
  first_offset := p.first_offset
  references := p.references.map SidxReference.new
  reserved := 0

/-- `SttsParameters` (include/shiguredo/mp4/box/stts.hpp:44-48). -/
structure SttsParameters where
  version : Byte := 0#8
  flags : BitVec 32 := 0x000000#32
  entries : List SttsEntryParameters

/-- The constructor `Stts(const SttsParameters&)` (src/box/stts.cpp:30-34). -/
def Stts.new (p : SttsParameters) : Stts where
  toFullBox := FullBox.new p.version p.flags
  entries := p.entries.map SttsEntry.new

/-- `CttsParameters` (include/shiguredo/mp4/box/ctts.hpp:36-40). -/
structure CttsParameters where
  version : Byte := 0#8
  flags : BitVec 32 := 0x000000#32
  /-- the arguments of the constructor of each `CttsEntry` -/
  entries : List (BitVec 32 × BitVec 64)

/-- The constructor `Ctts(const CttsParameters&)` (src/box/ctts.cpp:50-54). -/
def Ctts.new (p : CttsParameters) : Ctts where
  toFullBox := FullBox.new p.version p.flags
  entries := p.entries.map CttsEntry.new

/-- `StscParameters` (include/shiguredo/mp4/box/stsc.hpp:46-50). -/
structure StscParameters where
  version : Byte := 0#8
  flags : BitVec 32 := 0x000000#32
  entries : List StscEntryParameters

/-- The constructor `Stsc(const StscParameters&)` (src/box/stsc.cpp:30-34). -/
def Stsc.new (p : StscParameters) : Stsc where
  toFullBox := FullBox.new p.version p.flags
  entries := p.entries.map StscEntry.new

/-- `StcoParameters` (include/shiguredo/mp4/box/stco.hpp:14-18). -/
structure StcoParameters where
  version : Byte := 0#8
  flags : BitVec 32 := 0x000000#32
  chunk_offsets : List (BitVec 32)

/-- The constructor `Stco(const StcoParameters&)` (src/box/stco.cpp:27-31). -/
def Stco.new (p : StcoParameters) : Stco where
  toFullBox := FullBox.new p.version p.flags
  chunk_offsets := p.chunk_offsets

/-- `Co64Parameters` (include/shiguredo/mp4/box/co64.hpp:14-18). -/
structure Co64Parameters where
  version : Byte := 0#8
  flags : BitVec 32 := 0x000000#32
  chunk_offsets : List (BitVec 64)

/-- The constructor `Co64(const Co64Parameters&)` (src/box/co64.cpp:27-31). -/
def Co64.new (p : Co64Parameters) : Co64 where
  toFullBox := FullBox.new p.version p.flags
  chunk_offsets := p.chunk_offsets

/-- `StssParmeters` (include/shiguredo/mp4/box/stss.hpp:13-17). -/
structure StssParmeters where
  version : Byte := 0#8
  flags : BitVec 32 := 0x000000#32
  sample_numbers : List (BitVec 32)

/-- The constructor `Stss(const StssParmeters&)` (src/box/stss.cpp:27-31). -/
def Stss.new (p : StssParmeters) : Stss where
  toFullBox := FullBox.new p.version p.flags
  sample_numbers := p.sample_numbers

/-- `StszParameters` (include/shiguredo/mp4/box/stsz.hpp:13-18). -/
structure StszParameters where
  version : Byte := 0#8
  flags : BitVec 32 := 0x000000#32
  sample_size : BitVec 32 := 0#32
  entry_sizes : List (BitVec 32)

/-- The constructor `Stsz(const StszParameters&)` (src/box/stsz.cpp:27-31). -/
def Stsz.new (p : StszParameters) : Stsz where
  toFullBox := FullBox.new p.version p.flags
  sample_size := p.sample_size
  entry_sizes := p.entry_sizes

/-- `SdtpParameters` (include/shiguredo/mp4/box/sdtp.hpp:44-46). -/
structure SdtpParameters where
  samples : List StdpSampleParameters

/-- The constructor `Sdtp(const SdtpParameters&)` (src/box/sdtp.cpp:32-34). -/
def Sdtp.new (p : SdtpParameters) : Sdtp where
  toFullBox := FullBox.zero
  samples := p.samples.map SdtpSample.new

/-- `SbgpParameters` (include/shiguredo/mp4/box/sbgp.hpp:41-47). -/
structure SbgpParameters where
  version : Byte := 0#8
  flags : BitVec 32 := 0x000000#32
  grouping_type : Arr4 := fourcc "roll"
  grouping_type_parameter : BitVec 32 := 0#32
  entries : List SbgpEntryParameters

/-- The constructor `Sbgp(const SbgpParameters&)` (src/box/sbgp.cpp:46-53). -/
def Sbgp.new (p : SbgpParameters) : Sbgp where
  toFullBox := FullBox.new p.version p.flags
  grouping_type := p.grouping_type
  grouping_type_parameter := p.grouping_type_parameter
  entries := p.entries.map SbgpEntry.new

/-- `TfhdParameters` (include/shiguredo/mp4/box/tfhd.hpp:22-31). -/
structure TfhdParameters where
  version : Byte := 0#8
  flags : BitVec 32 := 0x000000#32
  track_id : BitVec 32
  base_data_offset : BitVec 64 := 0#64
  sample_description_index : BitVec 32 := 0#32
  default_sample_duration : BitVec 32 := 0#32
  default_sample_size : BitVec 32 := 0#32
  default_sample_flags : BitVec 32 := 0#32

/-- The constructor `Tfhd(const TfhdParameters&)` (src/box/tfhd.cpp:25-35). -/
def Tfhd.new (p : TfhdParameters) : Tfhd where
  toFullBox := FullBox.new p.version p.flags
  track_id := p.track_id
  base_data_offset := p.base_data_offset
  sample_description_index := p.sample_description_index
  default_sample_duration := p.default_sample_duration
  default_sample_size := p.default_sample_size
  default_sample_flags := p.default_sample_flags

/-- `TfraParameters` (include/shiguredo/mp4/box/tfra.hpp:55-63). -/
structure TfraParameters where
  version : Byte := 0#8
  flags : BitVec 32 := 0x000000#32
  track_id : BitVec 32
  length_size_of_traf_num : Byte
  length_size_of_trun_num : Byte
  length_size_of_sample_num : Byte
  entries : List TfraEntryParameters

/-- The constructor `Tfra(const TfraParameters&)` (src/box/tfra.cpp:30-39). Reserved members keep the initialisers of the class definition. -/
def Tfra.new (p : TfraParameters) : Tfra where
  toFullBox := FullBox.new p.version p.flags
  track_id := p.track_id
  length_size_of_traf_num := p.length_size_of_traf_num
  length_size_of_trun_num := p.length_size_of_trun_num
  length_size_of_sample_num := p.length_size_of_sample_num
  entries := p.entries.map TfraEntry.new
  reserved := 0

/-- `TrunParameters` (include/shiguredo/mp4/box/trun.hpp:44-50). -/
structure TrunParameters where
  version : Byte := 0#8
  flags : BitVec 32 := 0x000000#32
  data_offset : BitVec 32 := 0#32
  first_sample_flags : BitVec 32 := 0#32
  entries : List TrunEntryParameters := []

/-- The constructor `Trun(const TrunParameters&)` (src/box/trun.cpp:29-34). -/
def Trun.new (p : TrunParameters) : Trun where
  toFullBox := FullBox.new p.version p.flags
  data_offset := p.data_offset
  first_sample_flags := p.first_sample_flags
  entries := p.entries.map TrunEntry.new

/-- `AVCDecoderConfigurationParameters` (include/shiguredo/mp4/box/avc.hpp:62-75). -/
structure AVCDecoderConfigurationParameters where
  configuration_version : Byte
  profile : Byte
  profile_compatibility : Byte
  level : Byte
  length_size_minus_one : Byte := 3#8
  sequence_parameter_sets : List AVCParameterSetParameters := []
  picture_parameter_sets : List AVCParameterSetParameters := []
  high_profile_fields_enabled : Bool := false
  chroma_format : Byte := 0#8
  bit_depth_luma_minus8 : Byte := 0#8
  bit_depth_chroma_minus8 : Byte := 0#8
  sequence_parameter_sets_ext : List AVCParameterSetParameters := []

/-- The constructor `AVCDecoderConfiguration(const AVCDecoderConfigurationParameters&)` (src/box/avc.cpp:79-93). Reserved members keep the initialisers of the class definition. -/
def AvcC.new (p : AVCDecoderConfigurationParameters) : AvcC where
  configuration_version := p.configuration_version
  profile := p.profile
  profile_compatibility := p.profile_compatibility
  level := p.level
  length_size_minus_one := p.length_size_minus_one
  sequence_parameter_sets := p.sequence_parameter_sets.map AVCParameterSet.new
  picture_parameter_sets := p.picture_parameter_sets.map AVCParameterSet.new
  high_profile_fields_enabled := p.high_profile_fields_enabled
  chroma_format := p.chroma_format
  bit_depth_luma_minus8 := p.bit_depth_luma_minus8
  bit_depth_chroma_minus8 := p.bit_depth_chroma_minus8
  sequence_parameter_sets_ext := p.sequence_parameter_sets_ext.map AVCParameterSet.new
  reserved := 63
  reserved2 := 7
  reserved3 := 63
  reserved4 := 31
  reserved5 := 31

/-- `AV1CodecConfigurationParameters` (include/shiguredo/mp4/box/av1c.hpp:13-28). -/
structure AV1CodecConfigurationParameters where
  marker : Byte := 1#8
  version : Byte := 1#8
  seq_profile : Byte
  seq_level_idx_0 : Byte
  seq_tier_0 : Byte
  high_bitdepth : Bool := false
  twelve_bit : Bool := false
  monochrome : Bool := false
  chroma_subsampling_x : Byte
  chroma_subsampling_y : Byte
  chroma_sample_position : Byte
  initial_presentation_delay_present : Bool := false
  initial_presentation_delay_minus_one : Byte := 0#8
  config_OBUs : List Byte := []

/-- The constructor `AV1CodecConfiguration(const AV1CodecConfigurationParameters&)` (src/box/av1c.cpp:86-102). Reserved members keep the initialisers of the class definition. -/
def Av1C.new (p : AV1CodecConfigurationParameters) : Av1C where
  marker := p.marker
  version := p.version
  seq_profile := p.seq_profile
  seq_level_idx_0 := p.seq_level_idx_0
  seq_tier_0 := p.seq_tier_0
  high_bitdepth := p.high_bitdepth
  twelve_bit := p.twelve_bit
  monochrome := p.monochrome
  chroma_subsampling_x := p.chroma_subsampling_x
  chroma_subsampling_y := p.chroma_subsampling_y
  chroma_sample_position := p.chroma_sample_position
  initial_presentation_delay_present := p.initial_presentation_delay_present
  initial_presentation_delay_minus_one := p.initial_presentation_delay_minus_one
  config_OBUs := p.config_OBUs
  reserved := 0

/-- `VPCodecConfigurationParameters` (include/shiguredo/mp4/box/vpc.hpp:13-25). -/
structure VPCodecConfigurationParameters where
  version : Byte := 1#8
  flags : BitVec 32 := 0x000000#32
  profile : Byte := 0#8
  level : Byte := 21#8
  bit_depth : Byte := 8#8
  chroma_sub_sampling : Byte := 1#8
  video_full_range_flag : Byte := 0#8
  colour_primaries : Byte := 2#8
  transfer_characteristics : Byte := 2#8
  matrix_coefficients : Byte := 2#8
  codec_initialization_data : List Byte := []

/-- The constructor `VPCodecConfiguration(const VPCodecConfigurationParameters&)` (src/box/vpc.cpp:81-94). -/
def VpcC.new (p : VPCodecConfigurationParameters) : VpcC where
  toFullBox := FullBox.new p.version p.flags
  profile := p.profile
  level := p.level
  bit_depth := p.bit_depth
  chroma_sub_sampling := p.chroma_sub_sampling
  video_full_range_flag := p.video_full_range_flag
  colour_primaries := p.colour_primaries
  transfer_characteristics := p.transfer_characteristics
  matrix_coefficients := p.matrix_coefficients
  codec_initialization_data := p.codec_initialization_data

/-- `DOpsParameters` (include/shiguredo/mp4/box/dOps.hpp:46-54). -/
structure DOpsParameters where
  version : Byte := 0#8
  output_channel_count : Byte
  pre_skip : BitVec 16
  input_sample_rate : BitVec 32
  output_gain : BitVec 16
  channel_mapping_family : Byte
  channel_mapping_table : DOpsChannelMappingTableParameters := {}

/-- The constructor `DOps(const DOpsParameters&)` (src/box/dOps.cpp:97-106). -/
def DOps.new (p : DOpsParameters) : DOps where
  version := p.version
  output_channel_count := p.output_channel_count
  pre_skip := p.pre_skip
  input_sample_rate := p.input_sample_rate
  output_gain := p.output_gain
  channel_mapping_family := p.channel_mapping_family
  stream_count := p.channel_mapping_table.stream_count
  coupled_count := p.channel_mapping_table.coupled_count
  channel_mapping := p.channel_mapping_table.channel_mapping

/-- `VisualSampleEntryParameters` (include/shiguredo/mp4/box/sample_entry.hpp:30-45). -/
structure VisualSampleEntryParameters where
  type : BoxType
  data_reference_index : BitVec 16
  pre_defined : BitVec 16 := 0#16
  pre_defined2 : Vector (BitVec 32) 3 := #v[0#32, 0#32, 0#32]
  width : BitVec 16
  height : BitVec 16
  horizresolution : BitVec 32 := 72#32 <<< 16
  vertresolution : BitVec 32 := 72#32 <<< 16
  frame_count : BitVec 16 := 1#16
  compressorname : Vector Byte 32 := Vector.replicate 32 0#8
  depth : BitVec 16 := 24#16
  pre_defined3 : BitVec 16 := -1#16

/-- The constructor `VisualSampleEntry(const VisualSampleEntryParameters&)` (src/box/sample_entry.cpp:44-57). Reserved members keep the initialisers of the class definition. -/
def VisualSampleEntry.new (p : VisualSampleEntryParameters) : VisualSampleEntry where
  pre_defined := p.pre_defined
  pre_defined2 := p.pre_defined2
  width := p.width
  height := p.height
  horizresolution := p.horizresolution
  vertresolution := p.vertresolution
  frame_count := p.frame_count
  compressorname := p.compressorname
  depth := p.depth
  pre_defined3 := p.pre_defined3
  type := p.type
  data_reference_index := p.data_reference_index
  reserved := Vector.replicate 6 0
  reserved2 := 0
  reserved3 := 0

/-- `AudioSampleEntryParameters` (include/shiguredo/mp4/box/sample_entry.hpp:74-85). -/
structure AudioSampleEntryParameters where
  type : BoxType
  data_reference_index : BitVec 16
  entry_version : BitVec 16
  channel_count : BitVec 16
  sample_size : BitVec 16
  pre_defined : BitVec 16 := 0#16
  sample_rate : BitVec 32
  is_quick_time_compatible : Bool := false
  quick_time_data : List Byte := []
  under_wave : Bool := false

/-- The constructor `AudioSampleEntry(const AudioSampleEntryParameters&)` (src/box/sample_entry.cpp:122-134). Reserved members keep the initialisers of the class definition. -/
def AudioSampleEntry.init (p : AudioSampleEntryParameters) : AudioSampleEntry where
  entry_version := p.entry_version
  channel_count := p.channel_count
  sample_size := p.sample_size
  pre_defined := p.pre_defined
  sample_rate := p.sample_rate
  is_quick_time_compatible := p.is_quick_time_compatible
  quick_time_data := p.quick_time_data
  under_wave := p.under_wave
  type := p.type
  data_reference_index := p.data_reference_index
  reserved := Vector.replicate 6 0
  reserved2 := Vector.replicate 3 0
  reserved3 := 0

/-- `HdlrParameters` (include/shiguredo/mp4/box/hdlr.hpp:14-21). -/
structure HdlrParameters where
  version : Byte := 0#8
  flags : BitVec 32 := 0x000000#32
  pre_defined : BitVec 32 := 0#32
  handler_type : Arr4
  name : List Byte
  padding : List Byte := []

/-- The constructor `Hdlr(const HdlrParameters&)` (src/box/hdlr.cpp:27-35). Reserved members keep the initialisers of the class definition. -/
def Hdlr.new (p : HdlrParameters) : Hdlr where
  toFullBox := FullBox.new p.version p.flags
  pre_defined := p.pre_defined
  handler_type := p.handler_type
  name := p.name
  padding := p.padding
  manufacturer := ⟨0, 0, 0, 0⟩
  hflags := ⟨0, 0, 0, 0⟩
  flags_mask := ⟨0, 0, 0, 0⟩

/-- `UrlParameters` (include/shiguredo/mp4/box/url.hpp:14-18). -/
structure UrlParameters where
  version : Byte := 0#8
  flags : BitVec 32 := 0x000000#32
  location : List Byte := []

/-- The constructor `Url(const UrlParameters&)` (src/box/url.cpp:27-31). -/
def Url.new (p : UrlParameters) : Url where
  toFullBox := FullBox.new p.version p.flags
  location := p.location

/-- `UrnParameters` (include/shiguredo/mp4/box/urn.hpp:14-19). -/
structure UrnParameters where
  version : Byte := 0#8
  flags : BitVec 32 := 0x000000#32
  name : List Byte := []
  location : List Byte := []

/-- The constructor `Urn(const UrnParameters&)` (src/box/urn.cpp:27-31). -/
def Urn.new (p : UrnParameters) : Urn where
  toFullBox := FullBox.new p.version p.flags
  name := p.name
  location := p.location

/-- `EmsgParameters` (include/shiguredo/mp4/box/emsg.hpp:13-23). -/
structure EmsgParameters where
  version : Byte := 0#8
  flags : BitVec 32 := 0x000000#32
  scheme_uri : List Byte
  value : List Byte
  timescale : BitVec 32
  presentation_time : BitVec 64
  event_duration : BitVec 32
  id : BitVec 32
  message_data : List Byte

/-- The constructor `Emsg(const EmsgParameters&)` (src/box/emsg.cpp:28-39). -/
def Emsg.new (p : EmsgParameters) : Emsg where
  toFullBox := FullBox.new p.version p.flags
  scheme_uri := p.scheme_uri
  value := p.value
  timescale := p.timescale
  presentation_time := p.presentation_time
  event_duration := p.event_duration
  id := p.id
  message_data := p.message_data

/-- `DataParameters` (include/shiguredo/mp4/box/data.hpp:49-53). -/
structure DataParameters where
  data_type : BitVec 32 := 1#32
  data_lang : BitVec 32 := 0#32
  data : List Byte

/-- The constructor `Data(const DataParameters&)` (src/box/data.cpp:29-32). -/
def Data.new (p : DataParameters) : Data where
  data_type := p.data_type
  data_lang := p.data_lang
  data := p.data

/-- `ColrParameters` (include/shiguredo/mp4/box/colr.hpp:21-29). -/
structure ColrParameters where
  colour_type : Arr4
  colour_primaries : BitVec 16
  transfer_characteristics : BitVec 16
  matrix_coefficients : BitVec 16
  full_range_flag : Bool
  profile : List Byte := []
  unknown : List Byte := []

/-- The constructor `Colr(const ColrParameters&)` (src/box/colr.cpp:25-34). Reserved members keep the initialisers of the class definition. -/
def Colr.new (p : ColrParameters) : Colr where
  colour_type := p.colour_type
  colour_primaries := p.colour_primaries
  transfer_characteristics := p.transfer_characteristics
  matrix_coefficients := p.matrix_coefficients
  full_range_flag := p.full_range_flag
  profile := p.profile
  unknown := p.unknown
  reserved := 0

/-- `PsshParameters` (include/shiguredo/mp4/box/pssh.hpp:37-43). -/
structure PsshParameters where
  version : Byte := 0#8
  flags : BitVec 32 := 0x000000#32
  system_id : Vector Byte 16
  kids : List PsshKIDParameters := []
  data : List Byte

/-- The constructor `Pssh(const PsshParameters&)` (src/box/pssh.cpp:51-55). -/
def Pssh.new (p : PsshParameters) : Pssh where
  toFullBox := FullBox.new p.version p.flags
  system_id := p.system_id
  kids := p.kids.map PsshKID.new
  data := p.data

/-- `FtypParameters` (include/shiguredo/mp4/box/ftyp.hpp:16-20). -/
structure FtypParameters where
  major_brand : Arr4
  minor_version : BitVec 32
  compatible_brands : List Arr4

/-- The constructor `Ftyp(const FtypParameters&)` (src/box/ftyp.cpp:33-38). -/
def Ftyp.new (p : FtypParameters) : Ftyp where
  major_brand := p.major_brand
  minor_version := p.minor_version
  compatible_brands := p.compatible_brands

/-- `StypParameters` (include/shiguredo/mp4/box/styp.hpp:14-18). -/
structure StypParameters where
  major_brand : Arr4
  minor_version : BitVec 32
  compatible_brands : List Arr4

/-- The constructor `Styp(const StypParameters&)` (src/box/styp.cpp:33-38). -/
def Styp.new (p : StypParameters) : Ftyp where
  major_brand := p.major_brand
  minor_version := p.minor_version
  compatible_brands := p.compatible_brands

/-- `FreeParameters` (include/shiguredo/mp4/box/free.hpp:13-15). -/
structure FreeParameters where
  data : List Byte

/-- The constructor `Free(const FreeParameters&)` (src/box/free.cpp:28-30). -/
def Free.new (p : FreeParameters) : Opaque where
  data := p.data

/-- `SkipParameters` (include/shiguredo/mp4/box/skip.hpp:13-15). -/
structure SkipParameters where
  data : List Byte

/-- The constructor `Skip(const SkipParameters&)` (src/box/skip.cpp:28-30). -/
def Skip.new (p : SkipParameters) : Opaque where
  data := p.data

/-- `MdatParameters` (include/shiguredo/mp4/box/mdat.hpp:13-15). -/
structure MdatParameters where
  data : List Byte

/-- The constructor `Mdat(const MdatParameters&)` (src/box/mdat.cpp:28-30). -/
def Mdat.new (p : MdatParameters) : Opaque where
  data := p.data

/-- `UnsupportedParameters` (include/shiguredo/mp4/box/unsupported.hpp:13-15). -/
structure UnsupportedParameters where
  data : List Byte

/-- The constructor `Unsupported(const UnsupportedParameters&)` (src/box/unsupported.cpp:28-30). -/
def Unsupported.new (p : UnsupportedParameters) : Opaque where
  data := p.data

/-- `EsdsParameters` (include/shiguredo/mp4/box/esds.hpp:157-159). -/
structure EsdsParameters where
  descriptors : List DescriptorParameters

/-- The constructor `Esds(const EsdsParameters&)` (src/box/esds.cpp:290-292). -/
def Esds.new (p : EsdsParameters) : Esds where
  toFullBox := FullBox.zero
  descriptors := Descriptor.newList p.descriptors

/-- `SgpdParameters` (include/shiguredo/mp4/box/sgpd.hpp:138-148). -/
structure SgpdParameters where
  version : Byte := 1#8
  flags : BitVec 32 := 0x000000#32
  grouping_type : Arr4 := fourcc "roll"
  default_length : BitVec 32 := 2#32
  default_sample_description_index : BitVec 32 := 0#32
  roll_distances : List RollDistanceParameters := []
  alternative_startup_entries : List AlternativeStartupEntryParameters := []
  visual_random_access_entries : List VisualRandomAccessEntryParameters := []
  temporal_level_entries : List TemporalLevelEntryParameters := []

/-- The constructor `Sgpd(const SgpdParameters&)` (src/box/sgpd.cpp:33-44). -/
def Sgpd.new (p : SgpdParameters) : Sgpd where
  toFullBox := FullBox.new p.version p.flags
  grouping_type := p.grouping_type
  default_length := p.default_length
  default_sample_description_index := p.default_sample_description_index
  roll_distances := p.roll_distances.map RollDistance.new
  alternative_startup_entries := p.alternative_startup_entries.map StartupEntry.new
  visual_random_access_entries := p.visual_random_access_entries.map RapEntry.new
  temporal_level_entries := p.temporal_level_entries.map TeleEntry.new

/-- `IlstMetaParameters` (include/shiguredo/mp4/box/ilst.hpp:12-14). -/
structure IlstMetaParameters where
  type : BoxType

/-- The constructor `AudioSampleEntry(const AudioSampleEntryParameters&)` (src/box/sample_entry.cpp:122-134): the members, then
`checkLengthOfQuickTimeData` on the length of the QuickTime data (227-247), which may throw. -/
def AudioSampleEntry.new (p : AudioSampleEntryParameters) : Except Err AudioSampleEntry :=
  let b := AudioSampleEntry.init p
  if b.checkLengthOfQuickTimeData b.quick_time_data.length then .ok b
  else .error (.exc "AudioSampleEntry::checkLengthOfQuickTimeData(): invalid quick_time_data length")

/-- The constructor `IlstMeta(const IlstMetaParameters&)` (src/box/ilst.cpp:19-21): the type only. -/
def IlstMeta.new (p : IlstMetaParameters) : BoxType := p.type

/-- A call of a box constructor: the parameter constructor of each class that has one, and the default constructor of each
class without parameters. -/
inductive Construction where
  | btrt (p : BtrtParameters)
  | pasp (p : PixelAspectRatioParameters)
  | fiel (p : FielParameters)
  | smhd (p : SmhdParameters)
  | vmhd (p : VmhdParameters)
  | mfhd (p : MfhdParameters)
  | mfro (p : MfroParameters)
  | dref (p : DrefParameters)
  | stsd (p : StsdParameters)
  | trex (p : TrexParameters)
  | iods (p : IodsParameters)
  | mvhd (p : MvhdParameters)
  | tkhd (p : TkhdParameters)
  | mdhd (p : MdhdParameters)
  | mehd (p : MehdParameters)
  | tfdt (p : TfdtParameters)
  | elst (p : ElstParameters)
  | sidx (p : SidxParameters)
  | stts (p : SttsParameters)
  | ctts (p : CttsParameters)
  | stsc (p : StscParameters)
  | stco (p : StcoParameters)
  | co64 (p : Co64Parameters)
  | stss (p : StssParmeters)
  | stsz (p : StszParameters)
  | sdtp (p : SdtpParameters)
  | sbgp (p : SbgpParameters)
  | tfhd (p : TfhdParameters)
  | tfra (p : TfraParameters)
  | trun (p : TrunParameters)
  | avcC (p : AVCDecoderConfigurationParameters)
  | av1C (p : AV1CodecConfigurationParameters)
  | vpcC (p : VPCodecConfigurationParameters)
  | dOps (p : DOpsParameters)
  | visual (p : VisualSampleEntryParameters)
  | audio (p : AudioSampleEntryParameters)
  | hdlr (p : HdlrParameters)
  | url (p : UrlParameters)
  | urn (p : UrnParameters)
  | emsg (p : EmsgParameters)
  | data (p : DataParameters)
  | colr (p : ColrParameters)
  | pssh (p : PsshParameters)
  | ftyp (p : FtypParameters)
  | styp (p : StypParameters)
  | free (p : FreeParameters)
  | skip (p : SkipParameters)
  | mdat (p : MdatParameters)
  | unsupported (p : UnsupportedParameters)
  | esds (p : EsdsParameters)
  | sgpd (p : SgpdParameters)
  | ilstMeta (p : IlstMetaParameters)
  | dinf
  | edts
  | ilst
  | mdia
  | mfra
  | minf
  | moof
  | moov
  | mvex
  | schi
  | sinf
  | stbl
  | traf
  | trak
  | udta
  | wave
  | metaBox
  | urlSelf
  | urnSelf

/-- The box object a constructor call makes: `m_type` as the body of the constructor sets it, and the members.  Only the audio
sample entry can throw.  Type functions: src/box/*.cpp, `box_type_xxx`.  Containers: dinf.cpp:15-17, edts.cpp:15-17, ilst.cpp:15-17, mdia.cpp:15-17, mfra.cpp:15-17, minf.cpp:15-17, moof.cpp:15-17, moov.cpp:15-17, mvex.cpp:15-17, schi.cpp:15-17, sinf.cpp:15-17, stbl.cpp:15-17, traf.cpp:15-17, trak.cpp:15-17, udta.cpp:15-17, wave.cpp:15-17, meta.cpp:18-20 in src/box.
`urlSelf` and `urnSelf` are the default constructors `Url()` and `Urn()` (src/box/url.cpp:22-25, src/box/urn.cpp:22-25), which set the
self-contained flag. -/
def Construction.run : Construction → Except Err Box
  | .btrt p => .ok ⟨fourcc "btrt", .btrt (Btrt.new p), none⟩
  | .pasp p => .ok ⟨fourcc "pasp", .pasp (Pasp.new p), none⟩
  | .fiel p => .ok ⟨fourcc "fiel", .fiel (Fiel.new p), none⟩
  | .smhd p => .ok ⟨fourcc "smhd", .smhd (Smhd.new p), none⟩
  | .vmhd p => .ok ⟨fourcc "vmhd", .vmhd (Vmhd.new p), none⟩
  | .mfhd p => .ok ⟨fourcc "mfhd", .mfhd (Mfhd.new p), none⟩
  | .mfro p => .ok ⟨fourcc "mfro", .mfro (Mfro.new p), none⟩
  | .dref p => .ok ⟨fourcc "dref", .dref (Dref.new p), none⟩
  | .stsd p => .ok ⟨fourcc "stsd", .stsd (Stsd.new p), none⟩
  | .trex p => .ok ⟨fourcc "trex", .trex (Trex.new p), none⟩
  | .iods p => .ok ⟨fourcc "iods", .iods (Iods.new p), none⟩
  | .mvhd p => .ok ⟨fourcc "mvhd", .mvhd (Mvhd.new p), none⟩
  | .tkhd p => .ok ⟨fourcc "tkhd", .tkhd (Tkhd.new p), none⟩
  | .mdhd p => .ok ⟨fourcc "mdhd", .mdhd (Mdhd.new p), none⟩
  | .mehd p => .ok ⟨fourcc "mehd", .mehd (Mehd.new p), none⟩
  | .tfdt p => .ok ⟨fourcc "tfdt", .tfdt (Tfdt.new p), none⟩
  | .elst p => .ok ⟨fourcc "elst", .elst (Elst.new p), none⟩
  | .sidx p => .ok ⟨fourcc "sidx", .sidx (Sidx.new p), none⟩
  | .stts p => .ok ⟨fourcc "stts", .stts (Stts.new p), none⟩
  | .ctts p => .ok ⟨fourcc "ctts", .ctts (Ctts.new p), none⟩
  | .stsc p => .ok ⟨fourcc "stsc", .stsc (Stsc.new p), none⟩
  | .stco p => .ok ⟨fourcc "stco", .stco (Stco.new p), none⟩
  | .co64 p => .ok ⟨fourcc "co64", .co64 (Co64.new p), none⟩
  | .stss p => .ok ⟨fourcc "stss", .stss (Stss.new p), none⟩
  | .stsz p => .ok ⟨fourcc "stsz", .stsz (Stsz.new p), none⟩
  | .sdtp p => .ok ⟨fourcc "sdtp", .sdtp (Sdtp.new p), none⟩
  | .sbgp p => .ok ⟨fourcc "sbgp", .sbgp (Sbgp.new p), none⟩
  | .tfhd p => .ok ⟨fourcc "tfhd", .tfhd (Tfhd.new p), none⟩
  | .tfra p => .ok ⟨fourcc "tfra", .tfra (Tfra.new p), none⟩
  | .trun p => .ok ⟨fourcc "trun", .trun (Trun.new p), none⟩
  | .avcC p => .ok ⟨fourcc "avcC", .avcC (AvcC.new p), none⟩
  | .av1C p => .ok ⟨fourcc "av1C", .av1C (Av1C.new p), none⟩
  | .vpcC p => .ok ⟨fourcc "vpcC", .vpcC (VpcC.new p), none⟩
  | .dOps p => .ok ⟨fourcc "dOps", .dOps (DOps.new p), none⟩
  | .visual p => .ok ⟨p.type, .visual (VisualSampleEntry.new p), none⟩
  | .audio p => do
    let b ← AudioSampleEntry.new p
    pure ⟨p.type, .audio b, none⟩
  | .hdlr p => .ok ⟨fourcc "hdlr", .hdlr (Hdlr.new p), none⟩
  | .url p => .ok ⟨fourcc "url ", .url (Url.new p), none⟩
  | .urn p => .ok ⟨fourcc "urn ", .urn (Urn.new p), none⟩
  | .emsg p => .ok ⟨fourcc "emsg", .emsg (Emsg.new p), none⟩
  | .data p => .ok ⟨fourcc "data", .data (Data.new p), none⟩
  | .colr p => .ok ⟨fourcc "colr", .colr (Colr.new p), none⟩
  | .pssh p => .ok ⟨fourcc "pssh", .pssh (Pssh.new p), none⟩
  | .ftyp p => .ok ⟨fourcc "ftyp", .ftyp (Ftyp.new p), none⟩
  | .styp p => .ok ⟨fourcc "styp", .ftyp (Styp.new p), none⟩
  | .free p => .ok ⟨fourcc "free", .opaq (Free.new p), none⟩
  | .skip p => .ok ⟨fourcc "skip", .opaq (Skip.new p), none⟩
  | .mdat p => .ok ⟨fourcc "mdat", .opaq (Mdat.new p), none⟩
  | .unsupported p => .ok ⟨fourcc "unsu", .opaq (Unsupported.new p), none⟩
  | .esds p => .ok ⟨fourcc "esds", .esds (Esds.new p), none⟩
  | .sgpd p => .ok ⟨fourcc "sgpd", .sgpd (Sgpd.new p), none⟩
  | .ilstMeta p => .ok ⟨IlstMeta.new p, .empty, none⟩
  | .dinf => .ok ⟨fourcc "dinf", .empty, none⟩
  | .edts => .ok ⟨fourcc "edts", .empty, none⟩
  | .ilst => .ok ⟨fourcc "ilst", .empty, none⟩
  | .mdia => .ok ⟨fourcc "mdia", .empty, none⟩
  | .mfra => .ok ⟨fourcc "mfra", .empty, none⟩
  | .minf => .ok ⟨fourcc "minf", .empty, none⟩
  | .moof => .ok ⟨fourcc "moof", .empty, none⟩
  | .moov => .ok ⟨fourcc "moov", .empty, none⟩
  | .mvex => .ok ⟨fourcc "mvex", .empty, none⟩
  | .schi => .ok ⟨fourcc "schi", .empty, none⟩
  | .sinf => .ok ⟨fourcc "sinf", .empty, none⟩
  | .stbl => .ok ⟨fourcc "stbl", .empty, none⟩
  | .traf => .ok ⟨fourcc "traf", .empty, none⟩
  | .trak => .ok ⟨fourcc "trak", .empty, none⟩
  | .udta => .ok ⟨fourcc "udta", .empty, none⟩
  | .wave => .ok ⟨fourcc "wave", .empty, none⟩
  | .metaBox => .ok ⟨fourcc "meta", .metaBox ⟨FullBox.zero⟩, none⟩
  | .urlSelf => .ok ⟨fourcc "url ", .url ⟨FullBox.zero.setFlags 0x000001#32, []⟩, none⟩
  | .urnSelf => .ok ⟨fourcc "urn ", .urn ⟨FullBox.zero.setFlags 0x000001#32, [], []⟩, none⟩

end Mp4
