import Verif.Model.Calendar
import Verif.Model.Reader

/-! # The texts of the library: `toString`, `toStringOnlyData`, and what `SimpleReader::read` prints

Format strings are copied literally from the sources. -/

namespace Mp4

/-- Unsigned members as arguments of `fmt`. -/
def argU {w : Nat} (v : BitVec w) : Arg := .u v.toNat
/-- Signed members. -/
def argI {w : Nat} (v : BitVec w) : Arg := .i v.toInt
/-- `std::size(...)`. -/
def argSize {α : Type} (l : List α) : Arg := .u l.length
/-- `fmt::join` over unsigned elements. -/
def joinU {w : Nat} (l : List (BitVec w)) (sep : List Byte) : Arg := .join (l.map argU) sep
/-- `fmt::join` over signed elements. -/
def joinI {w : Nat} (l : List (BitVec w)) (sep : List Byte) : Arg := .join (l.map argI) sep
/-- `std::transform(... toString ...)` followed by `fmt::join`. -/
def joinMap {α : Type} (toString : α → List Byte) (l : List α) (sep : List Byte) : Arg := .join (l.map (fun e => .str (toString e))) sep

/-- `FullBox::getVersionAndFlagsString` (src/box.cpp:132-134). -/
def FullBox.getVersionAndFlagsString (b : FullBox) : List Byte :=
  format fmt!"Version={} Flags=0x{:02x}{:02x}{:02x}" [argU b.version, argU b.f0, argU b.f1, argU b.f2]

/-- `getVersionAndFlagsString()` as an argument. -/
def argVF (b : FullBox) : Arg := .str b.getVersionAndFlagsString

/-- `std::string(std::begin(a), std::end(a))` of a four-byte array. -/
def Arr4.str (a : Arr4) : List Byte := [a.b0, a.b1, a.b2, a.b3]

/-! ## Boxes of fixed fields -/

/-- src/box/btrt.cpp:32-35 -/
def Btrt.toStringOnlyData (b : Btrt) : List Byte :=
  format fmt!"DecodingBufferSize={} MaxBitrate={} AvgBitrate={}"
    [argU b.decoding_buffer_size, argU b.max_bitrate, argU b.avg_bitrate]

/-- src/box/pixel_aspect_ratio.cpp:30-32 -/
def Pasp.toStringOnlyData (b : Pasp) : List Byte := format fmt!"HSpacing={} VSpacing={}" [argU b.h_spacing, argU b.v_spacing]

/-- src/box/fiel.cpp:29-31 -/
def Fiel.toStringOnlyData (b : Fiel) : List Byte :=
  format fmt!"FieldCount={} FieldOrdering={}" [argU b.field_count, argU b.field_ordering]

/-- `Smhd::getBalance` (src/box/smhd.cpp:53-55): exact in `float`. -/
def Smhd.getBalance (b : Smhd) : Arg := .ratio b.balance.toInt 256

/-- src/box/smhd.cpp:31-33 -/
def Smhd.toStringOnlyData (b : Smhd) : List Byte := format fmt!"{} Balance={:.2f}" [argVF b.toFullBox, b.getBalance]

/-- src/box/vmhd.cpp:32-35 -/
def Vmhd.toStringOnlyData (b : Vmhd) : List Byte :=
  format fmt!"{} Graphicsmode={} Opcolor=[{}]" [argVF b.toFullBox, argU b.graphicsmode, joinU b.opcolor.toList b!", "]

/-- src/box/mfhd.cpp:31-33 -/
def Mfhd.toStringOnlyData (b : Mfhd) : List Byte :=
  format fmt!"{} SequenceNumber={}" [argVF b.toFullBox, argU b.sequence_number]

/-- src/box/mfro.cpp:31-33 -/
def Mfro.toStringOnlyData (b : Mfro) : List Byte := format fmt!"{} Size={}" [argVF b.toFullBox, argU b.size]

/-- src/box/dref.cpp:31-33 -/
def Dref.toStringOnlyData (b : Dref) : List Byte := format fmt!"{} EntryCount={}" [argVF b.toFullBox, argU b.entry_count]

/-- src/box/stsd.cpp:31-33 -/
def Stsd.toStringOnlyData (b : Stsd) : List Byte := format fmt!"{} EntryCount={}" [argVF b.toFullBox, argU b.entry_count]

/-- src/box/trex.cpp:36-42 -/
def Trex.toStringOnlyData (b : Trex) : List Byte :=
  format fmt!"{} TrackID={} DefaultSampleDescriptionIndex={} DefaultSampleDuration={} DefaultSampleSize={} DefaultSampleFlags={:#x}"
    [argVF b.toFullBox, argU b.track_id, argU b.default_sample_description_index, argU b.default_sample_duration,
     argU b.default_sample_size, argU b.default_sample_flags]

/-- src/box/iods.cpp:39-46 -/
def Iods.toStringOnlyData (b : Iods) : List Byte :=
  format fmt!"{} TypeTag={:#x} ODID={} ODProfileLevel={:#x} SceneProfileLevel={:#x} AudioProfileLevel={:#x} VideoProfileLevel={:#x} GraphicsProfileLevel={:#x}"
    [argVF b.toFullBox, argU b.type_tag, argU b.od_id, argU b.od_profile_level, argU b.scene_profile_level,
     argU b.audio_profile_level, argU b.video_profile_level, argU b.graphics_profile_level]

/-! ## Boxes whose field widths depend on the version -/

/-- `Mvhd::getRate` (src/box/mvhd.cpp:43-45): exact in `double`. -/
def Mvhd.getRate (b : Mvhd) : Arg := .ratio b.rate.toInt 65536

/-- src/box/mvhd.cpp:47-53 -/
def Mvhd.toStringOnlyData (b : Mvhd) : Except Err (List Byte) := do
  let creation ← timeText b.creation_time
  let modification ← timeText b.modification_time
  pure <| format fmt!"{} CreationTime=\"{}\" ModificationTime=\"{}\" Timescale={} Duration={} Rate={:.4f} Volume={} Matrix=[{:#x}] PreDefined=[{}] NextTrackID={}"
    [argVF b.toFullBox, .str creation, .str modification, argU b.timescale, argU b.duration, b.getRate, argI b.volume,
     joinI b.matrix.toList b!", ", joinI b.pre_defined.toList b!", ", argU b.next_track_id]

/-- `Tkhd::getWidth` (src/box/tkhd.cpp:114-116): exact in `double`. -/
def Tkhd.getWidth (b : Tkhd) : Arg := .ratio b.width.toNat 65536

/-- `Tkhd::getHeight` (src/box/tkhd.cpp:118-120): exact in `double`. -/
def Tkhd.getHeight (b : Tkhd) : Arg := .ratio b.height.toNat 65536

/-- src/box/tkhd.cpp:44-51 -/
def Tkhd.toStringOnlyData (b : Tkhd) : Except Err (List Byte) := do
  let creation ← timeText b.creation_time
  let modification ← timeText b.modification_time
  pure <| format fmt!"{} CreationTime=\"{}\" ModificationTime=\"{}\" TrackID={} Duration={} Layer={} AlternateGroup={} Volume={} Matrix=[{:#x}] Width={:.4f} Height={:.4f}"
    [argVF b.toFullBox, .str creation, .str modification, argU b.track_id, argU b.duration, argI b.layer,
     argI b.alternate_group, argI b.volume, joinI b.matrix.toList b!", ", b.getWidth, b.getHeight]

/-- src/box/mdhd.cpp:41-47 -/
def Mdhd.toStringOnlyData (b : Mdhd) : Except Err (List Byte) := do
  let creation ← timeText b.creation_time
  let modification ← timeText b.modification_time
  pure <| format fmt!"{} CreationTime=\"{}\" ModificationTime=\"{}\" Timescale={} Duration={} Pad={} Language=\"{:c}\" PreDefined={}"
    [argVF b.toFullBox, .str creation, .str modification, argU b.timescale, argU b.duration, .bool b.pad,
     joinU [b.language.b0, b.language.b1, b.language.b2] b!"", argU b.pre_defined]

/-- src/box/mehd.cpp:31-33 -/
def Mehd.toStringOnlyData (b : Mehd) : List Byte :=
  format fmt!"{} FragmentDuration={}" [argVF b.toFullBox, argU b.fragment_duration]

/-- src/box/tfdt.cpp:31-33 -/
def Tfdt.toStringOnlyData (b : Tfdt) : List Byte :=
  format fmt!"{} BaseMediaDecodeTime={}" [argVF b.toFullBox, argU b.base_media_decode_time]

/-- `ElstEntry::getMediaRate` (src/box/elst.cpp:45-47): exact in `double`. -/
def ElstEntry.getMediaRate (e : ElstEntry) : Arg := .ratio e.media_rate.toInt 65536

/-- src/box/elst.cpp:26-29 -/
def ElstEntry.toText (e : ElstEntry) : List Byte :=
  format fmt!"{{TrackDuration={} MediaTime={} MediaRate={:.4f}}}" [argU e.track_duration, argI e.media_time, e.getMediaRate]

/-- src/box/elst.cpp:63-70 -/
def Elst.toStringOnlyData (b : Elst) : List Byte :=
  format fmt!"{} EntryCount={} Entries=[{}]" [argVF b.toFullBox, argSize b.entries, joinMap ElstEntry.toText b.entries b!", "]

/-- src/box/sidx.cpp:98-103 -/
def SidxReference.toText (r : SidxReference) : List Byte :=
  format fmt!"{{ReferenceType={} ReferencedSize={} SubsegmentDuration={} StartsWithSAP={} SAPType={} SAPDeltaTime={}}}"
    [.bool r.reference_type, argU r.reference_size, argU r.subsegument_duration, .bool r.starts_with_sap, argU r.sap_type,
     argU r.sap_delta_time]

/-- src/box/sidx.cpp:40-50 -/
def Sidx.toStringOnlyData (b : Sidx) : List Byte :=
  format fmt!"{} ReferenceID={} Timescale={} EarliestPresentationTime={} FirstOffset={} ReferenceCount={} References=[{}]"
    [argVF b.toFullBox, argU b.reference_id, argU b.timescale, argU b.earliest_presentation_time, argU b.first_offset,
     argSize b.references, joinMap SidxReference.toText b.references b!", "]

/-! ## Tables -/

/-- src/box/stts.cpp:73-75 -/
def SttsEntry.toText (e : SttsEntry) : List Byte :=
  format fmt!"{{SampleCount={} SampleDuration={}}}" [argU e.sample_count, argU e.sample_duration]

/-- src/box/stts.cpp:36-42 -/
def Stts.toStringOnlyData (b : Stts) : List Byte :=
  format fmt!"{} EntryCount={} Entries=[{}]" [argVF b.toFullBox, argSize b.entries, joinMap SttsEntry.toText b.entries b!", "]

/-- src/box/ctts.cpp:26-28 -/
def CttsEntry.toText (e : CttsEntry) : List Byte :=
  format fmt!"{{SampleCount={} SampleOffset={}}}" [argU e.sample_count, argI e.sample_offset]

/-- src/box/ctts.cpp:56-63 -/
def Ctts.toStringOnlyData (b : Ctts) : List Byte :=
  format fmt!"{} EntryCount={} Entries=[{}]" [argVF b.toFullBox, argSize b.entries, joinMap CttsEntry.toText b.entries b!", "]

/-- src/box/stsc.cpp:75-78 -/
def StscEntry.toText (e : StscEntry) : List Byte :=
  format fmt!"{{FirstChunk={} SamplesPerChunk={} SampleDescriptionIndex={}}}"
    [argU e.first_chunk, argU e.samples_per_chunk, argU e.sample_description_index]

/-- src/box/stsc.cpp:36-42 -/
def Stsc.toStringOnlyData (b : Stsc) : List Byte :=
  format fmt!"{} EntryCount={} Entries=[{}]" [argVF b.toFullBox, argSize b.entries, joinMap StscEntry.toText b.entries b!", "]

/-- src/box/stco.cpp:33-36 -/
def Stco.toStringOnlyData (b : Stco) : List Byte :=
  format fmt!"{} EntryCount={} ChunkOffsets=[{:#x}]" [argVF b.toFullBox, argSize b.chunk_offsets, joinU b.chunk_offsets b!", "]

/-- src/box/co64.cpp:33-36 -/
def Co64.toStringOnlyData (b : Co64) : List Byte :=
  format fmt!"{} EntryCount={} ChunkOffsets=[{:#x}]" [argVF b.toFullBox, argSize b.chunk_offsets, joinU b.chunk_offsets b!", "]

/-- src/box/stss.cpp:33-36 -/
def Stss.toStringOnlyData (b : Stss) : List Byte :=
  format fmt!"{} EntryCount={} SampleNumbers=[{}]" [argVF b.toFullBox, argSize b.sample_numbers, joinU b.sample_numbers b!", "]

/-- src/box/stsz.cpp:33-36 -/
def Stsz.toStringOnlyData (b : Stsz) : List Byte :=
  format fmt!"{} SampleSize={} SampleCount={} EntrySizes=[{}]"
    [argVF b.toFullBox, argU b.sample_size, argSize b.entry_sizes, joinU b.entry_sizes b!", "]

/-- src/box/sdtp.cpp:73-76 -/
def SdtpSample.toText (s : SdtpSample) : List Byte :=
  format fmt!"{{IsLeading={:#x} SampleDependsOn={:#x} SampleIsDependedOn={:#x} SampleHasRedundancy={:#x}}}"
    [argU s.is_leading, argU s.sample_depends_on, argU s.sample_is_depended_on, argU s.sample_has_redundancy]

/-- src/box/sdtp.cpp:36-42 -/
def Sdtp.toStringOnlyData (b : Sdtp) : List Byte :=
  format fmt!"{} Samples=[{}]" [argVF b.toFullBox, joinMap SdtpSample.toText b.samples b!", "]

/-- src/box/sbgp.cpp:24-26 -/
def SbgpEntry.toText (e : SbgpEntry) : List Byte :=
  format fmt!"{{SampleCount={} GroupDescriptionIndex={}}}" [argU e.sample_count, argU e.group_description_index]

/-- src/box/sbgp.cpp:55-65 -/
def Sbgp.toStringOnlyData (b : Sbgp) : List Byte :=
  let s := format fmt!"{} GroupingType=\"{}\"" [argVF b.toFullBox, .str b.grouping_type.str]
  let s := if b.version ≠ 0 then s ++ format fmt!" GroupingTypeParameter={}" [argU b.grouping_type_parameter] else s
  s ++ format fmt!" EntryCount={} Entries=[{}]" [argSize b.entries, joinMap SbgpEntry.toText b.entries b!", "]

/-! ## Fragments -/

/-- src/box/tfhd.cpp:37-56 -/
def Tfhd.toStringOnlyData (b : Tfhd) : List Byte :=
  let s := format fmt!"{} TrackID={}" [argVF b.toFullBox, argU b.track_id]
  let s := if b.checkFlag 0x1#32 then s ++ format fmt!" BaseDataOffset={}" [argU b.base_data_offset] else s
  let s := if b.checkFlag 0x2#32 then s ++ format fmt!" SampleDescriptionIndex={}" [argU b.sample_description_index] else s
  let s := if b.checkFlag 0x8#32 then s ++ format fmt!" DefaultSampleDuration={}" [argU b.default_sample_duration] else s
  let s := if b.checkFlag 0x10#32 then s ++ format fmt!" DefaultSampleSize={}" [argU b.default_sample_size] else s
  if b.checkFlag 0x20#32 then s ++ format fmt!" DefaultSampleFlags={:#x}" [argU b.default_sample_flags] else s

/-- src/box/tfra.cpp:101-104 -/
def TfraEntry.toText (e : TfraEntry) : List Byte :=
  format fmt!"{{Time={} MoofOffset={} TrafNumber={} TrunNumber={} SampleNumber={}}}"
    [argU e.time, argU e.moof_offset, argU e.traf_number, argU e.trun_number, argU e.sample_number]

/-- src/box/tfra.cpp:41-50 -/
def Tfra.toStringOnlyData (b : Tfra) : List Byte :=
  format fmt!"{} TrackID={} LengthSizeOfTrafNum={:#x} LengthSizeOfTrunNum={:#x} LengthSizeOfSampleNum={:#x} NumberOfEntry={} Entries=[{}]"
    [argVF b.toFullBox, argU b.track_id, argU b.length_size_of_traf_num, argU b.length_size_of_trun_num,
     argU b.length_size_of_sample_num, argSize b.entries, joinMap TfraEntry.toText b.entries b!", "]

/-- src/box/trun.cpp:108-125 -/
def TrunEntry.toText (fb : FullBox) (e : TrunEntry) : List Byte :=
  let ss : List (List Byte) := []
  let ss := if fb.checkFlag 0x100#32 then ss ++ [format fmt!"SampleDuration={}" [argU e.sample_duration]] else ss
  let ss := if fb.checkFlag 0x200#32 then ss ++ [format fmt!"SampleSize={}" [argU e.sample_size]] else ss
  let ss := if fb.checkFlag 0x400#32 then ss ++ [format fmt!"SampleFlags={:#x}" [argU e.sample_flags]] else ss
  let ss := if fb.checkFlag 0x800#32 then ss ++ [format fmt!"SampleCompositionTimeOffset={}" [argI e.sample_composition_time_offset]] else ss
  format fmt!"{{{}}}" [.join (ss.map .str) b!" "]

/-- src/box/trun.cpp:36-49 -/
def Trun.toStringOnlyData (b : Trun) : List Byte :=
  let s := format fmt!"{} SampleCount={}" [argVF b.toFullBox, argSize b.entries]
  let s := if b.checkFlag 0x1#32 then s ++ format fmt!" DataOffset={}" [argI b.data_offset] else s
  let s := if b.checkFlag 0x4#32 then s ++ format fmt!" FirstSampleFlags={:#x}" [argU b.first_sample_flags] else s
  s ++ format fmt!" Entries=[{}]" [joinMap (TrunEntry.toText b.toFullBox) b.entries b!", "]

/-! ## Codec configurations -/

/-- `AVCParameterSet::toString` (src/box/avc.cpp:50-52). -/
def avcParameterSetText (nal_unit : List Byte) : List Byte :=
  format fmt!"{{Length={} NALUnit=[{:#x}]}}" [argSize nal_unit, joinU nal_unit b!", "]

/-- src/box/avc.cpp:95-126 -/
def AvcC.toStringOnlyData (b : AvcC) : List Byte :=
  let s := format fmt!"ConfigurationVersion={:#x} Profile={:#x} ProfileCompatibility={:#x} Level={:#x} LengthSizeMinusOne={:#x} NumOfSequenceParameterSets={:#x} SequenceParameterSets=[{}] NumOfPictureParameterSets={:#x} PictureParameterSets=[{}]"
    [argU b.configuration_version, argU b.profile, argU b.profile_compatibility, argU b.level, argU b.length_size_minus_one,
     argSize b.sequence_parameter_sets, joinMap avcParameterSetText b.sequence_parameter_sets b!", ",
     argSize b.picture_parameter_sets, joinMap avcParameterSetText b.picture_parameter_sets b!", "]
  if is_avc_high_profile b.profile && b.high_profile_fields_enabled then
    s ++ format fmt!" ChromaFormat={:#x} BitDepthLumaMinus8={:#x} BitDepthChromaMinus8={:#x} NumOfSequenceParameterSetExt={:#x} SequenceParameterSetsExt=[{}]"
      [argU b.chroma_format, argU b.bit_depth_luma_minus8, argU b.bit_depth_chroma_minus8, argSize b.sequence_parameter_sets_ext,
       joinMap avcParameterSetText b.sequence_parameter_sets_ext b!", "]
  else s

/-- src/box/av1c.cpp:27-40 -/
def Av1C.toStringOnlyData (b : Av1C) : List Byte :=
  let s := format fmt!"Marker={} Version={} SeqProfile={} SeqLevelIdx0={} SeqTier0={} HighBitdepth={} TwelveBit={} Monochrome={} ChromaSubsamplingX={} ChromaSubsamplingY={} ChromaSamplePosition={} InitialPresentationDelayPresent={}"
    [argU b.marker, argU b.version, argU b.seq_profile, argU b.seq_level_idx_0, argU b.seq_tier_0, .bool b.high_bitdepth,
     .bool b.twelve_bit, .bool b.monochrome, argU b.chroma_subsampling_x, argU b.chroma_subsampling_y,
     argU b.chroma_sample_position, .bool b.initial_presentation_delay_present]
  let s := if b.initial_presentation_delay_present then
      s ++ format fmt!" InitialPresentationDelayMinusOne={}" [argU b.initial_presentation_delay_minus_one]
    else s
  s ++ format fmt!" ConfigOBUs=[{:#x}]" [joinU b.config_OBUs b!", "]

/-- src/box/vpc.cpp:26-33 -/
def VpcC.toStringOnlyData (b : VpcC) : List Byte :=
  format fmt!"{} Profile={} Level={} BitDepth={} ChromaSubSampling={} VideoFullRangeFlag={} ColourPrimaries={} TransferCharacteristics={} MatrixCoefficients={} CodecInitializationData=[{:#x}]"
    [argVF b.toFullBox, argU b.profile, argU b.level, argU b.bit_depth, argU b.chroma_sub_sampling, argU b.video_full_range_flag,
     argU b.colour_primaries, argU b.transfer_characteristics, argU b.matrix_coefficients, joinU b.codec_initialization_data b!", "]

/-- `DOpsChannelMappingTable::toString` (src/box/dOps.cpp:76-79). -/
def DOps.tableText (b : DOps) : List Byte :=
  format fmt!"StreamCount={} CoupledCount={} ChannelMapping=[{}]"
    [argU b.stream_count, argU b.coupled_count, joinU b.channel_mapping b!", "]

/-- src/box/dOps.cpp:26-34 -/
def DOps.toStringOnlyData (b : DOps) : List Byte :=
  let s := format fmt!"Version={} OutputChannelCount={} PreSkip={} InputSampleRate={} OutputGain={} ChannelMappingFamily={}"
    [argU b.version, argU b.output_channel_count, argU b.pre_skip, argU b.input_sample_rate, argI b.output_gain,
     argU b.channel_mapping_family]
  if b.channel_mapping_family = 0 then s else s ++ b!" " ++ b.tableText

/-! ## Sample entries -/

/-- src/box/sample_entry.cpp:59-70 -/
def VisualSampleEntry.toStringOnlyData (b : VisualSampleEntry) : List Byte :=
  let size := b.compressorname[0].toNat
  let size := if size > 31 then 31 else size
  let compressorname := (b.compressorname.toList.drop 1).take size
  format fmt!"DataReferenceIndex={} PreDefined={} PreDefined2=[{}] Width={} Height={} Horizresolution={} Vertresolution={} FrameCount={} Compressorname=\"{}\" Depth={} PreDefined3={}"
    [argU b.data_reference_index, argU b.pre_defined, joinU b.pre_defined2.toList b!", ", argU b.width, argU b.height,
     argU b.horizresolution, argU b.vertresolution, argU b.frame_count, .str compressorname, argU b.depth, argI b.pre_defined3]

/-- src/box/sample_entry.cpp:136-148 -/
def AudioSampleEntry.toStringOnlyData (b : AudioSampleEntry) : List Byte :=
  if b.under_wave then format fmt!"QuickTimeData=[{:#x}]" [joinU b.quick_time_data b!", "]
  else
    let s := format fmt!"DataReferenceIndex={} EntryVersion={} ChannelCount={} SampleSize={} PreDefined={} SampleRate={}"
      [argU b.data_reference_index, argU b.entry_version, argU b.channel_count, argU b.sample_size, argU b.pre_defined,
       argU b.sample_rate]
    if !b.is_quick_time_compatible then s
    else s ++ format fmt!" QuickTimeData=[{:#x}]" [joinU b.quick_time_data b!", "]

/-! ## Boxes with strings -/

/-- src/box/hdlr.cpp:37-41 -/
def Hdlr.toStringOnlyData (b : Hdlr) : List Byte :=
  format fmt!"{} PreDefined={} HandlerType=\"{}\" Name=\"{}\""
    [argVF b.toFullBox, argU b.pre_defined, .str b.handler_type.str, .str b.name]

/-- src/box/url.cpp:33-38 -/
def Url.toStringOnlyData (b : Url) : List Byte :=
  if b.checkFlag 1#32 then b.toFullBox.getVersionAndFlagsString
  else format fmt!"{} Location=\"{}\"" [argVF b.toFullBox, .str b.location]

/-- src/box/urn.cpp:33-38 -/
def Urn.toStringOnlyData (b : Urn) : List Byte :=
  if b.checkFlag 1#32 then b.toFullBox.getVersionAndFlagsString
  else format fmt!"{} Name=\"{}\" Location=\"{}\"" [argVF b.toFullBox, .str b.name, .str b.location]

/-- src/box/emsg.cpp:41-53 -/
def Emsg.toStringOnlyData (b : Emsg) : List Byte :=
  let args : List Arg := [argVF b.toFullBox, .str b.scheme_uri, .str b.value, argU b.timescale, argU b.presentation_time,
    argU b.event_duration, argU b.id, .str b.message_data]
  if b.version = 0 then
    format fmt!"{} SchemeIdUri=\"{}\" Value=\"{}\" Timescale={} PresentationTimeDelta={} EventDuration={} Id={} MessageData=\"{}\"" args
  else
    format fmt!"{} SchemeIdUri=\"{}\" Value=\"{}\" Timescale={} PresentationTime={} EventDuration={} Id={} MessageData=\"{}\"" args

/-- `data_type_to_string` (include/shiguredo/mp4/box/data.hpp:26-47). -/
def data_type_to_string (t : BitVec 32) : List Byte :=
  match t.toNat with
  | 0 => b!"BINARY"
  | 1 => b!"UTF8"
  | 2 => b!"UTF16"
  | 3 => b!"MAC_STR"
  | 14 => b!"JPEG"
  | 21 => b!"INT"
  | 22 => b!"FLOAT32"
  | 23 => b!"FLOAT64"
  | _ => b!""

/-- `std::isprint` in the "C" locale. -/
def isprint (c : Byte) : Bool := 0x20#8 ≤ c && c ≤ 0x7e#8

/-- src/box/data.cpp:34-49 -/
def Data.toStringOnlyData (b : Data) : List Byte :=
  let s := format fmt!"DataType={} DataLang={} " [.str (data_type_to_string b.data_type), argU b.data_lang]
  if b.data_type = 1 then
    let escaped := b.data.map fun c => if isprint c then c else 0x2e#8
    s ++ format fmt!"Data=\"{}\"" [.str escaped]
  else s ++ format fmt!"Data=[{:#x}]" [joinU b.data b!", "]

/-- src/box/colr.cpp:36-64 -/
def Colr.toStringOnlyData (b : Colr) : List Byte :=
  let t : List Arg := [argU b.colour_type.b0, argU b.colour_type.b1, argU b.colour_type.b2, argU b.colour_type.b3]
  if b.colour_type = ⟨0x6e#8, 0x63#8, 0x6c#8, 0x78#8⟩ then
    format fmt!"ColourType=\"{:c}{:c}{:c}{:c}\" ColourPrimaries={} TransferCharacteristics={} MatrixCoefficients={} FullRangeFlag={}"
      (t ++ [argU b.colour_primaries, argU b.transfer_characteristics, argU b.matrix_coefficients, .bool b.full_range_flag])
  else if b.colour_type = ⟨0x72#8, 0x49#8, 0x43#8, 0x43#8⟩ ∨ b.colour_type = ⟨0x70#8, 0x72#8, 0x6f#8, 0x66#8⟩ then
    format fmt!"ColourType=\"{:c}{:c}{:c}{:c}\" Profile=[{:#x}]" (t ++ [joinU b.profile b!", "])
  else format fmt!"ColourType=\"{:c}{:c}{:c}{:c}\" Unknown=[{:#x}]" (t ++ [joinU b.unknown b!", "])

/-- `PsshKID::toString` (src/box/pssh.cpp:23-25). -/
def kidText (kid : Vector Byte 16) : List Byte := format fmt!"\"{:02x}\"" [joinU kid.toList b!""]

/-- src/box/pssh.cpp:57-67 -/
def Pssh.toStringOnlyData (b : Pssh) : List Byte :=
  let s := format fmt!"{} SystemID=\"{:02x}\"" [argVF b.toFullBox, joinU b.system_id.toList b!""]
  let s := if b.version ≠ 0 then
      s ++ format fmt!" KIDCount={} KIDs=[{}]" [argSize b.kids, joinMap kidText b.kids b!" "]
    else s
  s ++ format fmt!" DataSize={} Data=[{:#x}]" [argSize b.data, joinU b.data b!", "]

/-- src/box/ftyp.cpp:40-51, src/box/styp.cpp:40-51 -/
def Ftyp.toStringOnlyData (b : Ftyp) : List Byte :=
  format fmt!"MajorBrand=\"{}\" MinorVersion={} CompatibleBrands=[{}]"
    [.str b.major_brand.str, argU b.minor_version,
     joinMap (fun brand => format fmt!"{{CompatibleBrand=\"{}\"}}" [.str brand.str]) b.compatible_brands b!", "]

/-- src/box/free.cpp:32-34, skip.cpp:32-34, mdat.cpp:32-34; `Unsupported` (src/box/unsupported.cpp:32-34), whose objects have their own
type. -/
def Opaque.toStringOnlyData (type : BoxType) (b : Opaque) : List Byte :=
  if type = box_type_unsupported then format fmt!"(unsupported) Data=[{:#x}]" [joinU b.data b!", "]
  else format fmt!"Data=[{:#x}]" [joinU b.data b!", "]

/-! ## `esds` -/

/-- `toString` of the four descriptors (src/box/esds.cpp:121-140, 201-208, 242-244, 278-280). -/
def Descriptor.toText (d : Descriptor) : List Byte :=
  match d with
  | .es f _ =>
    let s := format fmt!"{{Tag=ESDescr DataSize={} DataSizeWithSubDescriptors={} ESID={} StreamDependenceFlag={} UrlFlag={} OcrStreamFlag={} StreamPriority={}"
      [argU f.getDataSize, argU d.sizeWithSubs, argU f.ESID, .bool f.stream_dependence_flag, .bool f.url_flag,
       .bool f.ocr_stream_flag, argI f.stream_priority]
    let s := if f.stream_dependence_flag then s ++ format fmt!" DependsOnESID={}" [argU f.depends_on_esid] else s
    let s := if f.url_flag then s ++ format fmt!" URLLength={:#x} URLString=\"{}\"" [argSize f.url_string, .str f.url_string] else s
    let s := if f.ocr_stream_flag then s ++ format fmt!" OCRESID={}" [argU f.OCRESID] else s
    s ++ b!"}"
  | .decConfig f _ =>
    format fmt!"{{Tag=DecoderConfigDescr DataSize={} DataSizeWithSubDescriptors={} ObjectTypeIndication={:#x} StreamType={} UpStream={} Reserved={} BufferSizeDB={} MaxBitrate={} AvgBitrate={}}}"
      [.u 13, argU d.sizeWithSubs, argU f.object_type_indication, argI f.stream_type, .bool f.upstream, .bool f.reserved,
       argU f.buffer_size_db, argU f.max_bitrate, argU f.avg_bitrate]
  | .decSpecific data =>
    format fmt!"{{Tag=DecSpecificInfo DataSize={} Data=[{:#x}]}}" [argU (BitVec.ofNat 32 data.length), joinU data b!", "]
  | .slConfig data =>
    format fmt!"{{Tag=SLConfigDescr DataSize={} Data=[{:#x}]}}" [argU (BitVec.ofNat 32 data.length), joinU data b!", "]

/-- src/box/esds.cpp:294-300 -/
def Esds.toStringOnlyData (b : Esds) : List Byte :=
  format fmt!"{} Descriptors=[{}]" [argVF b.toFullBox, joinMap Descriptor.toText b.descriptors b!", "]

/-! ## `sgpd` -/

/-- src/box/sgpd.cpp:222-227 -/
def RollDistance.toText (e : RollDistance) : List Byte :=
  if e.with_length then format fmt!"{{DescriptionLength={} RollDistance={}}}" [argU e.description_length, argI e.roll_distance]
  else format fmt!"{}" [argI e.roll_distance]

/-- src/box/sgpd.cpp:253-255 -/
def StartupOpt.toText (e : StartupOpt) : List Byte :=
  format fmt!"{{NumOutputSamples={} NumTotalSamples={}}}" [argU e.num_output_samples, argU e.num_total_samples]

/-- The beginning of the text of an entry with an optional length (src/box/sgpd.cpp:281-286, 347-352, 387-392). -/
def entryHead (with_length : Bool) (description_length : BitVec 32) : List Byte :=
  if with_length then format fmt!"{{DescriptionLength={} " [argU description_length] else b!"{"

/-- src/box/sgpd.cpp:276-290 -/
def StartupEntry.toText (e : StartupEntry) : List Byte :=
  entryHead e.with_length e.description_length ++ format fmt!"RollCount={} FirstOutputSample={} SampleOffset=[{}] Opts=[{}]}}"
    [argU e.roll_count, argU e.first_output_sample, joinU e.sample_offsets b!", ", joinMap StartupOpt.toText e.opts b!", "]

/-- src/box/sgpd.cpp:346-355 -/
def RapEntry.toText (e : RapEntry) : List Byte :=
  entryHead e.with_length e.description_length ++ format fmt!"NumLeadingSamplesKnown={} NumLeadingSamples={:#x}}}"
    [.bool e.num_leading_samples_known, argU e.num_leading_samples]

/-- src/box/sgpd.cpp:386-394 -/
def TeleEntry.toText (e : TeleEntry) : List Byte :=
  entryHead e.with_length e.description_length ++ format fmt!"LevelIndependentlyRecodable={}}}" [.bool e.level_independently_decodable]

/-- src/box/sgpd.cpp:46-102 -/
def Sgpd.toStringOnlyData (b : Sgpd) : List Byte :=
  let s := format fmt!"{} GroupingType=\"{}\"" [argVF b.toFullBox, .str b.grouping_type.str]
  let s := if b.version = 1 then s ++ format fmt!" DefaultLength={}" [argU b.default_length]
    else s ++ format fmt!" DefaultSampleDescriptionIndex={}" [argU b.default_sample_description_index]
  let no_default_length := noDefaultLength b.version b.default_length
  if isRoll b.grouping_type then
    let args := [argSize b.roll_distances, joinMap RollDistance.toText b.roll_distances b!", "]
    if no_default_length then s ++ format fmt!" EntryCount={} RollDistancesL=[{}]" args
    else s ++ format fmt!" EntryCount={} RollDistances=[{}]" args
  else if isAlst b.grouping_type then
    let args := [argSize b.alternative_startup_entries, joinMap StartupEntry.toText b.alternative_startup_entries b!", "]
    if no_default_length then s ++ format fmt!" EntryCount={} AlternativeStartupEntriesL=[{}]" args
    else s ++ format fmt!" EntryCount={} AlternativeStartupEntries=[{}]" args
  else if isRap b.grouping_type then
    let args := [argSize b.visual_random_access_entries, joinMap RapEntry.toText b.visual_random_access_entries b!", "]
    if no_default_length then s ++ format fmt!" EntryCount={} VisualRandomAccessEntriesL=[{}]" args
    else s ++ format fmt!" EntryCount={} VisualRandomAccessEntries=[{}]" args
  else if isTele b.grouping_type then
    let args := [argSize b.temporal_level_entries, joinMap TeleEntry.toText b.temporal_level_entries b!", "]
    if no_default_length then s ++ format fmt!" EntryCount={} TemporalLevelEntriesL=[{}]" args
    else s ++ format fmt!" EntryCount={} TemporalLevelEntries=[{}]" args
  else s

/-! ## All classes -/

/-- `toStringOnlyData()` of a box object of class `data` whose type is `type`.  The container classes return "" (src/box/dinf.cpp:19-21,
edts, ilst, mdia, mfra, minf, moof, moov, mvex, schi, sinf, stbl, traf, trak, udta, wave); `Meta`: src/box/meta.cpp:22-24. -/
def BoxData.toStringOnlyData (type : BoxType) : BoxData → Except Err (List Byte)
  | .btrt b => .ok b.toStringOnlyData
  | .pasp b => .ok b.toStringOnlyData
  | .fiel b => .ok b.toStringOnlyData
  | .smhd b => .ok b.toStringOnlyData
  | .vmhd b => .ok b.toStringOnlyData
  | .mfhd b => .ok b.toStringOnlyData
  | .mfro b => .ok b.toStringOnlyData
  | .dref b => .ok b.toStringOnlyData
  | .stsd b => .ok b.toStringOnlyData
  | .trex b => .ok b.toStringOnlyData
  | .iods b => .ok b.toStringOnlyData
  | .mvhd b => b.toStringOnlyData
  | .tkhd b => b.toStringOnlyData
  | .mdhd b => b.toStringOnlyData
  | .mehd b => .ok b.toStringOnlyData
  | .tfdt b => .ok b.toStringOnlyData
  | .elst b => .ok b.toStringOnlyData
  | .sidx b => .ok b.toStringOnlyData
  | .stts b => .ok b.toStringOnlyData
  | .ctts b => .ok b.toStringOnlyData
  | .stsc b => .ok b.toStringOnlyData
  | .stco b => .ok b.toStringOnlyData
  | .co64 b => .ok b.toStringOnlyData
  | .stss b => .ok b.toStringOnlyData
  | .stsz b => .ok b.toStringOnlyData
  | .sdtp b => .ok b.toStringOnlyData
  | .sbgp b => .ok b.toStringOnlyData
  | .tfhd b => .ok b.toStringOnlyData
  | .tfra b => .ok b.toStringOnlyData
  | .trun b => .ok b.toStringOnlyData
  | .avcC b => .ok b.toStringOnlyData
  | .av1C b => .ok b.toStringOnlyData
  | .vpcC b => .ok b.toStringOnlyData
  | .dOps b => .ok b.toStringOnlyData
  | .visual b => .ok b.toStringOnlyData
  | .audio b => .ok b.toStringOnlyData
  | .hdlr b => .ok b.toStringOnlyData
  | .url b => .ok b.toStringOnlyData
  | .urn b => .ok b.toStringOnlyData
  | .emsg b => .ok b.toStringOnlyData
  | .data b => .ok b.toStringOnlyData
  | .colr b => .ok b.toStringOnlyData
  | .pssh b => .ok b.toStringOnlyData
  | .ftyp b => .ok b.toStringOnlyData
  | .metaBox b => .ok b.toFullBox.getVersionAndFlagsString
  | .opaq b => .ok (b.toStringOnlyData type)
  | .esds b => .ok b.toStringOnlyData
  | .sgpd b => .ok b.toStringOnlyData
  | .empty => .ok []

/-- `BoxHeader::toString` (src/box_header.cpp:141-143). -/
def BoxHeader.toText (h : BoxHeader) : List Byte :=
  format fmt!"[{}] Offset={} Size={}" [.str h.type.toText, .u h.offset, .u h.size]

/-- `Box::toString` (src/box.cpp:63-73). -/
def Box.toText (b : Box) : Except Err (List Byte) := do
  let only_data ← b.data.toStringOnlyData b.type
  let only_data := if only_data.isEmpty then only_data else b!" " ++ only_data
  match b.header with
  | some h => pure (format fmt!"{}{}" [.str h.toText, .str only_data])
  | none => pure (format fmt!"header is not set:{}" [.str only_data])

mutual
/-- `BoxInfo::toString` (src/box_info.cpp:56-65).  The path is never empty (src/box_info.cpp:16-31); with an empty one
`(std::size(m_path) - 1) * 2` would wrap around and `std::string` would throw.  The texts of the children are made before the box's own. -/
def Tree.toText : Tree → Except Err (List Byte)
  | .node box path ls => do
    let leafs ← Tree.toTexts ls
    if path.length = 0 then .error (.exc "std::length_error")
    else do
      let pad := List.replicate ((path.length - 1) * 2) 0x20#8
      let text ← box.toText
      if leafs.isEmpty then pure (format fmt!"{}{}" [.str pad, .str text])
      else pure (format fmt!"{}{}\n{}" [.str pad, .str text, .join (leafs.map .str) b!"\n"])
/-- The `std::transform` over the children. -/
def Tree.toTexts : List Tree → Except Err (List (List Byte))
  | [] => .ok []
  | t :: ts => do
    let s ← t.toText
    let ss ← Tree.toTexts ts
    pure (s :: ss)
end

/-- The loop of `SimpleReader::read` over the top-level boxes (src/reader/reader.cpp:42-44): what was printed on standard output, and how it
ended. -/
def printBoxes : List Tree → List Byte × Except Err Unit
  | [] => ([], .ok ())
  | t :: ts =>
    match t.toText with
    | .error e => ([], .error e)
    | .ok s =>
      let (out, r) := printBoxes ts
      (s ++ b!"\n" ++ out, r)

/-- `SimpleReader::read` (src/reader/reader.cpp:37-45) including the printing: standard output and how it ended.  (Log messages of `spdlog` are
not modelled.) -/
def SimpleReader.dump (sr : SimpleReader) : Option (List Byte × Except Err Unit) :=
  match sr.read with
  | none => none
  | some ⟨_, .error e⟩ => some ([], .error e)
  | some ⟨_, .ok ts⟩ => some (printBoxes ts)

end Mp4
