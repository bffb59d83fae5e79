import Verif.Model.Calendar
import Verif.Spec.Calendar
import Verif.Model.Reader

/-! # What a dump shows

A box is shown as labelled values: numbers, fractions, truth values, words, quoted texts, lists and records.  `fieldsOf` lists, for every class of boxes, which
members are shown under which label and in which form; `render` is the notation — `Label=value` separated by single spaces, lists in brackets, records in
braces. The properties compare the texts of the library with this. -/

namespace Mp4
namespace Spec

/-- A value without inner structure. -/
inductive Scalar where
  /-- a number in decimal -/
  | num (n : Int)
  /-- a number in hexadecimal, with `0x` -/
  | hex (n : Int)
  /-- three bytes as one hexadecimal number of six digits, with `0x` -/
  | flags (a b c : Byte)
  /-- a decimal fraction: `units / 10 ^ places`, negated if `neg` -/
  | fraction (neg : Bool) (units places : Nat)
  | bool (b : Bool)
  /-- a word without quotes -/
  | word (w : List Byte)
  deriving DecidableEq

/-- A value. -/
inductive Item where
  | scalar (s : Scalar)
  /-- a text in double quotes -/
  | quoted (s : List Byte)
  /-- values in brackets, separated by a comma and a space -/
  | list (l : List Item)
  /-- values in brackets, separated by a space only -/
  | spaced (l : List Item)
  /-- labelled values in braces -/
  | record (fields : List (List Byte × Item))

/-- A labelled value. -/
abbrev Field := List Byte × Item

/-- The notation of a scalar. -/
def Scalar.text : Scalar → List Byte
  | .num n => sign (n < 0) ++ dec n.natAbs
  | .hex n => sign (n < 0) ++ hexNat n.natAbs
  | .flags a b c => b!"0x" ++ hex2 a ++ hex2 b ++ hex2 c
  | .fraction neg units places => sign neg ++ dec (units / 10 ^ places) ++ b!"." ++ decPad places units
  | .bool b => if b then b!"true" else b!"false"
  | .word w => w

mutual
/-- The notation of a value. -/
def Item.text : Item → List Byte
  | .scalar s => s.text
  | .quoted s => b!"\"" ++ s ++ b!"\""
  | .list l => b!"[" ++ List.intercalate b!", " (Item.texts l) ++ b!"]"
  | .spaced l => b!"[" ++ List.intercalate b!" " (Item.texts l) ++ b!"]"
  | .record fields => b!"{" ++ List.intercalate b!" " (Item.fieldTexts fields) ++ b!"}"
/-- The notations of several values. -/
def Item.texts : List Item → List (List Byte)
  | [] => []
  | x :: l => x.text :: Item.texts l
/-- The notations of several labelled values: `Label=value`. -/
def Item.fieldTexts : List (List Byte × Item) → List (List Byte)
  | [] => []
  | (label, x) :: l => (label ++ b!"=" ++ x.text) :: Item.fieldTexts l
end

/-- The text of a box with these fields. -/
def render (fields : List Field) : List Byte := List.intercalate b!" " (Item.fieldTexts fields)

mutual
/-- The texts in quotes in a value. -/
def Item.quotes : Item → List (List Byte)
  | .scalar _ => []
  | .quoted s => [s]
  | .list l => Item.quotesOf l
  | .spaced l => Item.quotesOf l
  | .record fields => Item.fieldQuotes fields
/-- The texts in quotes in several values. -/
def Item.quotesOf : List Item → List (List Byte)
  | [] => []
  | x :: l => x.quotes ++ Item.quotesOf l
/-- The texts in quotes in labelled values. -/
def Item.fieldQuotes : List (List Byte × Item) → List (List Byte)
  | [] => []
  | (_, x) :: l => x.quotes ++ Item.fieldQuotes l
end

/-- The texts in quotes in the fields of a box. -/
def quotedTexts (fields : List Field) : List (List Byte) := Item.fieldQuotes fields

/-! ## Forms of members -/

/-- An unsigned member in decimal. -/
def num {w : Nat} (v : BitVec w) : Item := .scalar (.num v.toNat)
/-- A signed member in decimal. -/
def int {w : Nat} (v : BitVec w) : Item := .scalar (.num v.toInt)
/-- An unsigned member in hexadecimal. -/
def hex {w : Nat} (v : BitVec w) : Item := .scalar (.hex v.toNat)
/-- A signed member in hexadecimal. -/
def hexInt {w : Nat} (v : BitVec w) : Item := .scalar (.hex v.toInt)
/-- A number of elements. -/
def count {α : Type} (l : List α) : Item := .scalar (.num l.length)
/-- A number of elements in hexadecimal. -/
def hexCount {α : Type} (l : List α) : Item := .scalar (.hex l.length)
/-- A truth value. -/
def bool (b : Bool) : Item := .scalar (.bool b)
/-- A word. -/
def word (w : List Byte) : Item := .scalar (.word w)
/-- A text. -/
def quoted (s : List Byte) : Item := .quoted s
/-- The fraction `num / den` to the nearest multiple of `1 / 10 ^ places` (`C66_fraction_nearest`). -/
def fraction (places : Nat) (num : Int) (den : Nat) : Item :=
  .scalar (.fraction (num < 0) (roundEven (num.natAbs * 10 ^ places) den) places)
/-- A list. -/
def listOf {α : Type} (f : α → Item) (l : List α) : Item := .list (l.map f)
/-- The bytes of a four-byte array as text. -/
def quoted4 (a : Arr4) : Item := .quoted [a.b0, a.b1, a.b2, a.b3]
/-- Bytes as text in hexadecimal, two digits each. -/
def hexString (l : List Byte) : Item := .quoted (l.flatMap hex2)

/-- The shown form of a time (`C51_calendar`, `C51_all_times`); nothing where it is undefined. -/
def shownTime (t : BitVec 64) : List Byte := match timeText t with | .ok s => s | .error _ => []

/-- A labelled value that is shown only under a condition. -/
def shownIf (c : Bool) (fields : List Field) : List Field := if c then fields else []

/-- Version and flags. -/
def versionAndFlags (b : FullBox) : List Field :=
  [(b!"Version", num b.version), (b!"Flags", .scalar (.flags b.f0 b.f1 b.f2))]

/-! ## Elements of tables -/

def elstEntry (e : ElstEntry) : Item := .record
  [(b!"TrackDuration", num e.track_duration), (b!"MediaTime", int e.media_time), (b!"MediaRate", fraction 4 e.media_rate.toInt 65536)]

def sidxReference (r : SidxReference) : Item := .record
  [(b!"ReferenceType", bool r.reference_type), (b!"ReferencedSize", num r.reference_size),
   (b!"SubsegmentDuration", num r.subsegument_duration), (b!"StartsWithSAP", bool r.starts_with_sap), (b!"SAPType", num r.sap_type),
   (b!"SAPDeltaTime", num r.sap_delta_time)]

def sttsEntry (e : SttsEntry) : Item := .record
  [(b!"SampleCount", num e.sample_count), (b!"SampleDuration", num e.sample_duration)]

def cttsEntry (e : CttsEntry) : Item := .record
  [(b!"SampleCount", num e.sample_count), (b!"SampleOffset", int e.sample_offset)]

def stscEntry (e : StscEntry) : Item := .record
  [(b!"FirstChunk", num e.first_chunk), (b!"SamplesPerChunk", num e.samples_per_chunk),
   (b!"SampleDescriptionIndex", num e.sample_description_index)]

def sdtpSample (s : SdtpSample) : Item := .record
  [(b!"IsLeading", hex s.is_leading), (b!"SampleDependsOn", hex s.sample_depends_on),
   (b!"SampleIsDependedOn", hex s.sample_is_depended_on), (b!"SampleHasRedundancy", hex s.sample_has_redundancy)]

def sbgpEntry (e : SbgpEntry) : Item := .record
  [(b!"SampleCount", num e.sample_count), (b!"GroupDescriptionIndex", num e.group_description_index)]

def tfraEntry (e : TfraEntry) : Item := .record
  [(b!"Time", num e.time), (b!"MoofOffset", num e.moof_offset), (b!"TrafNumber", num e.traf_number), (b!"TrunNumber", num e.trun_number),
   (b!"SampleNumber", num e.sample_number)]

/-- A sample of a track run: what the flags of the box say is present. -/
def trunEntry (fb : FullBox) (e : TrunEntry) : Item := .record <|
  shownIf (fb.checkFlag 0x100#32) [(b!"SampleDuration", num e.sample_duration)] ++
  shownIf (fb.checkFlag 0x200#32) [(b!"SampleSize", num e.sample_size)] ++
  shownIf (fb.checkFlag 0x400#32) [(b!"SampleFlags", hex e.sample_flags)] ++
  shownIf (fb.checkFlag 0x800#32) [(b!"SampleCompositionTimeOffset", int e.sample_composition_time_offset)]

def parameterSet (nal : List Byte) : Item := .record [(b!"Length", count nal), (b!"NALUnit", listOf hex nal)]

def brand (a : Arr4) : Item := .record [(b!"CompatibleBrand", quoted4 a)]

/-- A length in front of an entry of `sgpd`, if the entries carry their own. -/
def descriptionLength (with_length : Bool) (length : BitVec 32) : List Field :=
  shownIf with_length [(b!"DescriptionLength", num length)]

def rollEntry (e : RollDistance) : Item :=
  if e.with_length then .record [(b!"DescriptionLength", num e.description_length), (b!"RollDistance", int e.roll_distance)]
  else int e.roll_distance

def startupOpt (e : StartupOpt) : Item := .record
  [(b!"NumOutputSamples", num e.num_output_samples), (b!"NumTotalSamples", num e.num_total_samples)]

def startupEntry (e : StartupEntry) : Item := .record <|
  descriptionLength e.with_length e.description_length ++
  [(b!"RollCount", num e.roll_count), (b!"FirstOutputSample", num e.first_output_sample), (b!"SampleOffset", listOf num e.sample_offsets),
   (b!"Opts", listOf startupOpt e.opts)]

def rapEntry (e : RapEntry) : Item := .record <|
  descriptionLength e.with_length e.description_length ++
  [(b!"NumLeadingSamplesKnown", bool e.num_leading_samples_known), (b!"NumLeadingSamples", hex e.num_leading_samples)]

def teleEntry (e : TeleEntry) : Item := .record <|
  descriptionLength e.with_length e.description_length ++
  [(b!"LevelIndependentlyRecodable", bool e.level_independently_decodable)]

/-- A descriptor of `esds`; the sub-descriptors of a descriptor are listed separately, and only their size is shown with it. -/
def descriptor (d : Descriptor) : Item :=
  match d with
  | .es f _ => .record <|
    [(b!"Tag", word b!"ESDescr"), (b!"DataSize", num f.getDataSize), (b!"DataSizeWithSubDescriptors", num d.sizeWithSubs), (b!"ESID", num f.ESID),
     (b!"StreamDependenceFlag", bool f.stream_dependence_flag), (b!"UrlFlag", bool f.url_flag), (b!"OcrStreamFlag", bool f.ocr_stream_flag),
     (b!"StreamPriority", int f.stream_priority)] ++
    shownIf f.stream_dependence_flag [(b!"DependsOnESID", num f.depends_on_esid)] ++
    shownIf f.url_flag [(b!"URLLength", hexCount f.url_string), (b!"URLString", quoted f.url_string)] ++
    shownIf f.ocr_stream_flag [(b!"OCRESID", num f.OCRESID)]
  | .decConfig f _ => .record
    [(b!"Tag", word b!"DecoderConfigDescr"), (b!"DataSize", .scalar (.num 13)), (b!"DataSizeWithSubDescriptors", num d.sizeWithSubs),
     (b!"ObjectTypeIndication", hex f.object_type_indication), (b!"StreamType", int f.stream_type), (b!"UpStream", bool f.upstream),
     (b!"Reserved", bool f.reserved), (b!"BufferSizeDB", num f.buffer_size_db), (b!"MaxBitrate", num f.max_bitrate),
     (b!"AvgBitrate", num f.avg_bitrate)]
  | .decSpecific data => .record
    [(b!"Tag", word b!"DecSpecificInfo"), (b!"DataSize", num (BitVec.ofNat 32 data.length)), (b!"Data", listOf hex data)]
  | .slConfig data => .record
    [(b!"Tag", word b!"SLConfigDescr"), (b!"DataSize", num (BitVec.ofNat 32 data.length)), (b!"Data", listOf hex data)]

/-- The name of a type of metadata; empty for types without one. -/
def dataTypeName (t : BitVec 32) : List Byte :=
  if t = 0 then b!"BINARY" else if t = 1 then b!"UTF8" else if t = 2 then b!"UTF16" else if t = 3 then b!"MAC_STR"
  else if t = 14 then b!"JPEG" else if t = 21 then b!"INT" else if t = 22 then b!"FLOAT32" else if t = 23 then b!"FLOAT64" else []

/-- Characters that are not printable ASCII are shown as dots. -/
def printable (s : List Byte) : List Byte := s.map fun c => if 0x20 ≤ c.toNat ∧ c.toNat ≤ 0x7e then c else 0x2e#8

/-- The name of the compressor: a length (at most 31 counts) and the name. -/
def compressorName (v : Vector Byte 32) : List Byte := (v.toList.drop 1).take (min v[0].toNat 31)

/-- The entries of `sgpd`, under a label that tells whether they carry their own lengths. -/
def sgpdEntries {α : Type} (own : Bool) (label labelOwn : List Byte) (f : α → Item) (l : List α) : List Field :=
  [(b!"EntryCount", count l), (if own then labelOwn else label, listOf f l)]

/-! ## The fields of each class -/

def fieldsOf (type : BoxType) : BoxData → List Field
  | .btrt b => [(b!"DecodingBufferSize", num b.decoding_buffer_size), (b!"MaxBitrate", num b.max_bitrate), (b!"AvgBitrate", num b.avg_bitrate)]
  | .pasp b => [(b!"HSpacing", num b.h_spacing), (b!"VSpacing", num b.v_spacing)]
  | .fiel b => [(b!"FieldCount", num b.field_count), (b!"FieldOrdering", num b.field_ordering)]
  | .smhd b => versionAndFlags b.toFullBox ++ [(b!"Balance", fraction 2 b.balance.toInt 256)]
  | .vmhd b => versionAndFlags b.toFullBox ++ [(b!"Graphicsmode", num b.graphicsmode), (b!"Opcolor", listOf num b.opcolor.toList)]
  | .mfhd b => versionAndFlags b.toFullBox ++ [(b!"SequenceNumber", num b.sequence_number)]
  | .mfro b => versionAndFlags b.toFullBox ++ [(b!"Size", num b.size)]
  | .dref b => versionAndFlags b.toFullBox ++ [(b!"EntryCount", num b.entry_count)]
  | .stsd b => versionAndFlags b.toFullBox ++ [(b!"EntryCount", num b.entry_count)]
  | .trex b => versionAndFlags b.toFullBox ++
    [(b!"TrackID", num b.track_id), (b!"DefaultSampleDescriptionIndex", num b.default_sample_description_index),
     (b!"DefaultSampleDuration", num b.default_sample_duration), (b!"DefaultSampleSize", num b.default_sample_size),
     (b!"DefaultSampleFlags", hex b.default_sample_flags)]
  | .iods b => versionAndFlags b.toFullBox ++
    [(b!"TypeTag", hex b.type_tag), (b!"ODID", num b.od_id), (b!"ODProfileLevel", hex b.od_profile_level),
     (b!"SceneProfileLevel", hex b.scene_profile_level), (b!"AudioProfileLevel", hex b.audio_profile_level),
     (b!"VideoProfileLevel", hex b.video_profile_level), (b!"GraphicsProfileLevel", hex b.graphics_profile_level)]
  | .mvhd b => versionAndFlags b.toFullBox ++
    [(b!"CreationTime", quoted (shownTime b.creation_time)), (b!"ModificationTime", quoted (shownTime b.modification_time)),
     (b!"Timescale", num b.timescale), (b!"Duration", num b.duration), (b!"Rate", fraction 4 b.rate.toInt 65536), (b!"Volume", int b.volume),
     (b!"Matrix", listOf hexInt b.matrix.toList), (b!"PreDefined", listOf int b.pre_defined.toList), (b!"NextTrackID", num b.next_track_id)]
  | .tkhd b => versionAndFlags b.toFullBox ++
    [(b!"CreationTime", quoted (shownTime b.creation_time)), (b!"ModificationTime", quoted (shownTime b.modification_time)),
     (b!"TrackID", num b.track_id), (b!"Duration", num b.duration), (b!"Layer", int b.layer), (b!"AlternateGroup", int b.alternate_group),
     (b!"Volume", int b.volume), (b!"Matrix", listOf hexInt b.matrix.toList), (b!"Width", fraction 4 b.width.toNat 65536),
     (b!"Height", fraction 4 b.height.toNat 65536)]
  | .mdhd b => versionAndFlags b.toFullBox ++
    [(b!"CreationTime", quoted (shownTime b.creation_time)), (b!"ModificationTime", quoted (shownTime b.modification_time)),
     (b!"Timescale", num b.timescale), (b!"Duration", num b.duration), (b!"Pad", bool b.pad),
     (b!"Language", quoted [b.language.b0, b.language.b1, b.language.b2]), (b!"PreDefined", num b.pre_defined)]
  | .mehd b => versionAndFlags b.toFullBox ++ [(b!"FragmentDuration", num b.fragment_duration)]
  | .tfdt b => versionAndFlags b.toFullBox ++ [(b!"BaseMediaDecodeTime", num b.base_media_decode_time)]
  | .elst b => versionAndFlags b.toFullBox ++ [(b!"EntryCount", count b.entries), (b!"Entries", listOf elstEntry b.entries)]
  | .sidx b => versionAndFlags b.toFullBox ++
    [(b!"ReferenceID", num b.reference_id), (b!"Timescale", num b.timescale), (b!"EarliestPresentationTime", num b.earliest_presentation_time),
     (b!"FirstOffset", num b.first_offset), (b!"ReferenceCount", count b.references), (b!"References", listOf sidxReference b.references)]
  | .stts b => versionAndFlags b.toFullBox ++ [(b!"EntryCount", count b.entries), (b!"Entries", listOf sttsEntry b.entries)]
  | .ctts b => versionAndFlags b.toFullBox ++ [(b!"EntryCount", count b.entries), (b!"Entries", listOf cttsEntry b.entries)]
  | .stsc b => versionAndFlags b.toFullBox ++ [(b!"EntryCount", count b.entries), (b!"Entries", listOf stscEntry b.entries)]
  | .stco b => versionAndFlags b.toFullBox ++ [(b!"EntryCount", count b.chunk_offsets), (b!"ChunkOffsets", listOf hex b.chunk_offsets)]
  | .co64 b => versionAndFlags b.toFullBox ++ [(b!"EntryCount", count b.chunk_offsets), (b!"ChunkOffsets", listOf hex b.chunk_offsets)]
  | .stss b => versionAndFlags b.toFullBox ++ [(b!"EntryCount", count b.sample_numbers), (b!"SampleNumbers", listOf num b.sample_numbers)]
  | .stsz b => versionAndFlags b.toFullBox ++
    [(b!"SampleSize", num b.sample_size), (b!"SampleCount", count b.entry_sizes), (b!"EntrySizes", listOf num b.entry_sizes)]
  | .sdtp b => versionAndFlags b.toFullBox ++ [(b!"Samples", listOf sdtpSample b.samples)]
  | .sbgp b => versionAndFlags b.toFullBox ++ [(b!"GroupingType", quoted4 b.grouping_type)] ++
    shownIf (b.version != 0) [(b!"GroupingTypeParameter", num b.grouping_type_parameter)] ++
    [(b!"EntryCount", count b.entries), (b!"Entries", listOf sbgpEntry b.entries)]
  | .tfhd b => versionAndFlags b.toFullBox ++ [(b!"TrackID", num b.track_id)] ++
    shownIf (b.checkFlag 0x1#32) [(b!"BaseDataOffset", num b.base_data_offset)] ++
    shownIf (b.checkFlag 0x2#32) [(b!"SampleDescriptionIndex", num b.sample_description_index)] ++
    shownIf (b.checkFlag 0x8#32) [(b!"DefaultSampleDuration", num b.default_sample_duration)] ++
    shownIf (b.checkFlag 0x10#32) [(b!"DefaultSampleSize", num b.default_sample_size)] ++
    shownIf (b.checkFlag 0x20#32) [(b!"DefaultSampleFlags", hex b.default_sample_flags)]
  | .tfra b => versionAndFlags b.toFullBox ++
    [(b!"TrackID", num b.track_id), (b!"LengthSizeOfTrafNum", hex b.length_size_of_traf_num),
     (b!"LengthSizeOfTrunNum", hex b.length_size_of_trun_num), (b!"LengthSizeOfSampleNum", hex b.length_size_of_sample_num),
     (b!"NumberOfEntry", count b.entries), (b!"Entries", listOf tfraEntry b.entries)]
  | .trun b => versionAndFlags b.toFullBox ++ [(b!"SampleCount", count b.entries)] ++
    shownIf (b.checkFlag 0x1#32) [(b!"DataOffset", int b.data_offset)] ++
    shownIf (b.checkFlag 0x4#32) [(b!"FirstSampleFlags", hex b.first_sample_flags)] ++
    [(b!"Entries", listOf (trunEntry b.toFullBox) b.entries)]
  | .avcC b =>
    [(b!"ConfigurationVersion", hex b.configuration_version), (b!"Profile", hex b.profile), (b!"ProfileCompatibility", hex b.profile_compatibility),
     (b!"Level", hex b.level), (b!"LengthSizeMinusOne", hex b.length_size_minus_one),
     (b!"NumOfSequenceParameterSets", hexCount b.sequence_parameter_sets), (b!"SequenceParameterSets", listOf parameterSet b.sequence_parameter_sets),
     (b!"NumOfPictureParameterSets", hexCount b.picture_parameter_sets), (b!"PictureParameterSets", listOf parameterSet b.picture_parameter_sets)] ++
    shownIf (is_avc_high_profile b.profile && b.high_profile_fields_enabled)
      [(b!"ChromaFormat", hex b.chroma_format), (b!"BitDepthLumaMinus8", hex b.bit_depth_luma_minus8),
       (b!"BitDepthChromaMinus8", hex b.bit_depth_chroma_minus8), (b!"NumOfSequenceParameterSetExt", hexCount b.sequence_parameter_sets_ext),
       (b!"SequenceParameterSetsExt", listOf parameterSet b.sequence_parameter_sets_ext)]
  | .av1C b =>
    [(b!"Marker", num b.marker), (b!"Version", num b.version), (b!"SeqProfile", num b.seq_profile), (b!"SeqLevelIdx0", num b.seq_level_idx_0),
     (b!"SeqTier0", num b.seq_tier_0), (b!"HighBitdepth", bool b.high_bitdepth), (b!"TwelveBit", bool b.twelve_bit),
     (b!"Monochrome", bool b.monochrome), (b!"ChromaSubsamplingX", num b.chroma_subsampling_x), (b!"ChromaSubsamplingY", num b.chroma_subsampling_y),
     (b!"ChromaSamplePosition", num b.chroma_sample_position), (b!"InitialPresentationDelayPresent", bool b.initial_presentation_delay_present)] ++
    shownIf b.initial_presentation_delay_present [(b!"InitialPresentationDelayMinusOne", num b.initial_presentation_delay_minus_one)] ++
    [(b!"ConfigOBUs", listOf hex b.config_OBUs)]
  | .vpcC b => versionAndFlags b.toFullBox ++
    [(b!"Profile", num b.profile), (b!"Level", num b.level), (b!"BitDepth", num b.bit_depth), (b!"ChromaSubSampling", num b.chroma_sub_sampling),
     (b!"VideoFullRangeFlag", num b.video_full_range_flag), (b!"ColourPrimaries", num b.colour_primaries),
     (b!"TransferCharacteristics", num b.transfer_characteristics), (b!"MatrixCoefficients", num b.matrix_coefficients),
     (b!"CodecInitializationData", listOf hex b.codec_initialization_data)]
  | .dOps b =>
    [(b!"Version", num b.version), (b!"OutputChannelCount", num b.output_channel_count), (b!"PreSkip", num b.pre_skip),
     (b!"InputSampleRate", num b.input_sample_rate), (b!"OutputGain", int b.output_gain), (b!"ChannelMappingFamily", num b.channel_mapping_family)] ++
    shownIf (b.channel_mapping_family != 0)
      [(b!"StreamCount", num b.stream_count), (b!"CoupledCount", num b.coupled_count), (b!"ChannelMapping", listOf num b.channel_mapping)]
  | .visual b =>
    [(b!"DataReferenceIndex", num b.data_reference_index), (b!"PreDefined", num b.pre_defined), (b!"PreDefined2", listOf num b.pre_defined2.toList),
     (b!"Width", num b.width), (b!"Height", num b.height), (b!"Horizresolution", num b.horizresolution), (b!"Vertresolution", num b.vertresolution),
     (b!"FrameCount", num b.frame_count), (b!"Compressorname", quoted (compressorName b.compressorname)), (b!"Depth", num b.depth),
     (b!"PreDefined3", int b.pre_defined3)]
  | .audio b =>
    shownIf (!b.under_wave)
      [(b!"DataReferenceIndex", num b.data_reference_index), (b!"EntryVersion", num b.entry_version), (b!"ChannelCount", num b.channel_count),
       (b!"SampleSize", num b.sample_size), (b!"PreDefined", num b.pre_defined), (b!"SampleRate", num b.sample_rate)] ++
    shownIf (b.under_wave || b.is_quick_time_compatible) [(b!"QuickTimeData", listOf hex b.quick_time_data)]
  | .hdlr b => versionAndFlags b.toFullBox ++
    [(b!"PreDefined", num b.pre_defined), (b!"HandlerType", quoted4 b.handler_type), (b!"Name", quoted b.name)]
  | .url b => versionAndFlags b.toFullBox ++ shownIf (!b.checkFlag 1#32) [(b!"Location", quoted b.location)]
  | .urn b => versionAndFlags b.toFullBox ++ shownIf (!b.checkFlag 1#32) [(b!"Name", quoted b.name), (b!"Location", quoted b.location)]
  | .emsg b => versionAndFlags b.toFullBox ++
    [(b!"SchemeIdUri", quoted b.scheme_uri), (b!"Value", quoted b.value), (b!"Timescale", num b.timescale),
     (if b.version = 0 then b!"PresentationTimeDelta" else b!"PresentationTime", num b.presentation_time),
     (b!"EventDuration", num b.event_duration), (b!"Id", num b.id), (b!"MessageData", quoted b.message_data)]
  | .data b =>
    [(b!"DataType", word (dataTypeName b.data_type)), (b!"DataLang", num b.data_lang),
     (b!"Data", if b.data_type = 1 then quoted (printable b.data) else listOf hex b.data)]
  | .colr b =>
    let type := b.colour_type
    (b!"ColourType", quoted4 type) ::
    if [type.b0, type.b1, type.b2, type.b3] = b!"nclx" then
      [(b!"ColourPrimaries", num b.colour_primaries), (b!"TransferCharacteristics", num b.transfer_characteristics),
       (b!"MatrixCoefficients", num b.matrix_coefficients), (b!"FullRangeFlag", bool b.full_range_flag)]
    else if [type.b0, type.b1, type.b2, type.b3] = b!"rICC" ∨ [type.b0, type.b1, type.b2, type.b3] = b!"prof" then
      [(b!"Profile", listOf hex b.profile)]
    else [(b!"Unknown", listOf hex b.unknown)]
  | .pssh b => versionAndFlags b.toFullBox ++ [(b!"SystemID", hexString b.system_id.toList)] ++
    shownIf (b.version != 0) [(b!"KIDCount", count b.kids), (b!"KIDs", .spaced (b.kids.map fun k => hexString k.toList))] ++
    [(b!"DataSize", count b.data), (b!"Data", listOf hex b.data)]
  | .ftyp b =>
    [(b!"MajorBrand", quoted4 b.major_brand), (b!"MinorVersion", num b.minor_version), (b!"CompatibleBrands", listOf brand b.compatible_brands)]
  | .metaBox b => versionAndFlags b.toFullBox
  | .opaq b => [(if type = box_type_unsupported then b!"(unsupported) Data" else b!"Data", listOf hex b.data)]
  | .esds b => versionAndFlags b.toFullBox ++ [(b!"Descriptors", listOf descriptor b.descriptors)]
  | .sgpd b =>
    let own := noDefaultLength b.version b.default_length
    versionAndFlags b.toFullBox ++ [(b!"GroupingType", quoted4 b.grouping_type)] ++
    [if b.version = 1 then (b!"DefaultLength", num b.default_length)
     else (b!"DefaultSampleDescriptionIndex", num b.default_sample_description_index)] ++
    if isRoll b.grouping_type then sgpdEntries own b!"RollDistances" b!"RollDistancesL" rollEntry b.roll_distances
    else if isAlst b.grouping_type then
      sgpdEntries own b!"AlternativeStartupEntries" b!"AlternativeStartupEntriesL" startupEntry b.alternative_startup_entries
    else if isRap b.grouping_type then
      sgpdEntries own b!"VisualRandomAccessEntries" b!"VisualRandomAccessEntriesL" rapEntry b.visual_random_access_entries
    else if isTele b.grouping_type then
      sgpdEntries own b!"TemporalLevelEntries" b!"TemporalLevelEntriesL" teleEntry b.temporal_level_entries
    else []
  | .empty => []

/-- The times a box shows. -/
def times : BoxData → List (BitVec 64)
  | .mvhd b => [b.creation_time, b.modification_time]
  | .tkhd b => [b.creation_time, b.modification_time]
  | .mdhd b => [b.creation_time, b.modification_time]
  | _ => []

/-- All its times can be shown. -/
def timesShown (d : BoxData) : Prop := ∀ t ∈ times d, ∃ s, timeText t = .ok s

/-! ## The dump of a file -/

/-- What one line of the dump shows: how deep the box is nested, its type, offset and size as its header in the file says, and its fields. -/
structure Line where
  depth : Nat
  type : BoxType
  offset : Nat
  size : Nat
  fields : List Field

/-- The notation of a line: two spaces for every level, the type in brackets, offset and size, and the fields if there are any.  The text of a type is the
subject of C50. -/
def Line.text (l : Line) : List Byte :=
  List.replicate (2 * l.depth) 0x20#8 ++ b!"[" ++ l.type.toText ++ b!"] Offset=" ++ dec l.offset ++ b!" Size=" ++ dec l.size ++
  (if l.fields.isEmpty then [] else b!" " ++ render l.fields)

mutual
/-- The lines of a tree of boxes: every box before its children, the children one level deeper and in order. -/
def linesOf (depth : Nat) : Tree → List Line
  | .node box _ leafs =>
    box.header.toList.map (fun h => ⟨depth, h.type, h.offset, h.size, fieldsOf box.type box.data⟩) ++ linesOfList (depth + 1) leafs
/-- The lines of several trees. -/
def linesOfList (depth : Nat) : List Tree → List Line
  | [] => []
  | t :: ts => linesOf depth t ++ linesOfList depth ts
end

/-- Lines as they are printed. -/
def printed (ls : List Line) : List Byte := ls.flatMap (fun l => l.text ++ b!"\n")

mutual
/-- All boxes of a tree. -/
def boxesOf : Tree → List Box
  | .node box _ leafs => box :: boxesOfList leafs
def boxesOfList : List Tree → List Box
  | [] => []
  | t :: ts => boxesOf t ++ boxesOfList ts
end

/-- The times (seconds since 1904 in 64 bits) that cannot be converted: taken as signed after the change of epoch they are negative, and the year does
not fit into the calendar of the C library (an `int` that counts from 1900). -/
def Unconvertible (t : BitVec 64) : Prop :=
  2 ^ 63 + 2082844800 ≤ t.toNat ∧ (t.toNat : Int) - 2 ^ 64 + secondsSince1970 epoch1904 < secondsSince1970 (newYear (1900 - 2 ^ 31))

/-- All times in the box can be shown. -/
def Shown (b : Box) : Prop := timesShown b.data

end Spec
end Mp4
