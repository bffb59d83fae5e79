import Verif.Model.Tree
import Verif.Model.H264

/-! # Tracks (`src/track/*.cpp`) -/

namespace Mp4

/-- The two virtual functions of `Writer` a track calls (include/shiguredo/mp4/writer/writer.hpp:40-42).  A track keeps a pointer
to its writer; here the writer's state is passed along. -/
class MdatWriter (σ : Type) where
  tellCurrentMdatOffset : σ → BitVec 64
  addMdatData : σ → List Byte → σ

/-- `ChunkInfo` (include/shiguredo/mp4/track/track.hpp:34-38). -/
structure ChunkInfo where
  offset : BitVec 64 := 0
  number_of_samples : BitVec 32 := 0
  initialized : Bool := false
  deriving DecidableEq, Repr

/-- `HandlerType` (include/shiguredo/mp4/track/track.hpp:40-43). -/
inductive HandlerType where
  | vide
  | soun
  deriving DecidableEq, Repr

/-- `AV1Track`'s own members (include/shiguredo/mp4/track/av1.hpp:50-57). -/
structure Av1Config where
  seq_profile : Byte
  seq_level_idx_0 : Byte
  seq_tier_0 : Byte
  chroma_subsampling_x : Byte
  chroma_subsampling_y : Byte
  chroma_sample_position : Byte
  config_OBUs : List Byte
  deriving DecidableEq, Repr

/-- The class of a track with the members it adds to `Track` (and `VideTrack`). -/
inductive Codec where
  /-- `H264Track` (include/shiguredo/mp4/track/h264.hpp:37-54) -/
  | h264 (width height : BitVec 32) (cfg : H264Config)
  /-- `VPXTrack` (include/shiguredo/mp4/track/vpx.hpp:39-51) -/
  | vpx (vp8 : Bool) (width height max_bitrate avg_bitrate : BitVec 32)
  /-- `AV1Track` (include/shiguredo/mp4/track/av1.hpp:41-58) -/
  | av1 (width height : BitVec 32) (cfg : Av1Config)
  /-- `OpusTrack` (include/shiguredo/mp4/track/opus.hpp:31-45) -/
  | opus (pre_skip : BitVec 64) (roll_distance : BitVec 16)
  /-- `AACTrack` (include/shiguredo/mp4/track/aac.hpp:34-49); `m_roll_distance` is always -1 -/
  | aac (buffer_size_db max_bitrate avg_bitrate : BitVec 32)
  /-- `MP3Track` (include/shiguredo/mp4/track/mp3.hpp:34-46) -/
  | mp3 (buffer_size_db max_bitrate avg_bitrate : BitVec 32)
  deriving DecidableEq

/-- `m_handler_type`, set by the constructors of the base classes (src/track/vide.cpp:8-10, src/track/soun.cpp:8-10). -/
def Codec.handler : Codec → HandlerType
  | .h264 .. | .vpx .. | .av1 .. => .vide
  | .opus .. | .aac .. | .mp3 .. => .soun

/-- `Track` (include/shiguredo/mp4/track/track.hpp:45-104).  Simplification: the members `m_duration` (a `float`) and
`m_mvhd_timescale` are represented by the two values computed from them, `getDurationInTimescale()` and
`getDurationInMvhdTimescale()` (src/track/track.cpp:158-164); they never change after construction. -/
structure Track where
  timescale : BitVec 32
  durationInTimescale : BitVec 64
  durationInMvhdTimescale : BitVec 64
  time_from_epoch : BitVec 64
  media_time : BitVec 64
  track_id : BitVec 32
  finalized : Bool := false
  mdat_sample_sizes : List (BitVec 32) := []
  chunk_infos : List ChunkInfo := []
  current_chunk_info : ChunkInfo := {}
  prev_timestamp : BitVec 64 := 0
  sample_durations : List (BitVec 32) := []
  key_sample_numbers : List (BitVec 32) := []
  codec : Codec
  deriving DecidableEq

/-- The parameters common to all six constructors. -/
structure TrackParameters where
  timescale : BitVec 32
  durationInTimescale : BitVec 64
  durationInMvhdTimescale : BitVec 64
  time_from_epoch : BitVec 64
  media_time : BitVec 64
  track_id : BitVec 32
  deriving DecidableEq

/-- The constructors (src/track/h264.cpp:16-33, vpx.cpp:12-28, av1.cpp:12-32, opus.cpp:13-25, aac.cpp:14-26,
mp3.cpp:12-24). `OpusTrack` always has timescale 48000. -/
def Track.new (p : TrackParameters) (codec : Codec) : Except Err Track :=
  if p.track_id = 0 then .error (.exc "invalid track_id=0")
  else .ok { timescale := match codec with
               | .opus .. => 48000
               | _ => p.timescale
             durationInTimescale := p.durationInTimescale
             durationInMvhdTimescale := p.durationInMvhdTimescale
             time_from_epoch := p.time_from_epoch, media_time := p.media_time, track_id := p.track_id
             codec := codec }

namespace Track

/-- `Track::terminateCurrentChunk` (src/track/track.cpp:16-21). -/
def terminateCurrentChunk (t : Track) : Track :=
  if t.current_chunk_info.number_of_samples > 0 then
    { t with chunk_infos := t.chunk_infos ++ [t.current_chunk_info],
             current_chunk_info := { offset := 0, number_of_samples := 0, initialized := false } }
  else t

/-- `Track::addMdatData` (src/track/track.cpp:27-48): the track and its writer afterwards. -/
def addMdatData {σ : Type} [MdatWriter σ] (t : Track) (w : σ) (timestamp : BitVec 64) (data : List Byte) (is_key : Bool) :
    Track × σ :=
  let c := t.current_chunk_info
  let c := if c.initialized then c
    else { c with initialized := true, offset := MdatWriter.tellCurrentMdatOffset w }
  let c := { c with number_of_samples := c.number_of_samples + 1 }
  let durations := if t.mdat_sample_sizes = [] then t.sample_durations
    else t.sample_durations ++ [(timestamp - t.prev_timestamp).setWidth 32]
  let w := MdatWriter.addMdatData w data
  let sizes := t.mdat_sample_sizes ++ [BitVec.ofNat 32 data.length]
  let keys := if t.codec.handler = .vide ∧ is_key then t.key_sample_numbers ++ [BitVec.ofNat 32 sizes.length]
    else t.key_sample_numbers
  ({ t with current_chunk_info := c, sample_durations := durations, prev_timestamp := timestamp,
            mdat_sample_sizes := sizes, key_sample_numbers := keys }, w)

/-- `Track::finalize` (src/track/track.cpp:50-62). -/
def finalize (t : Track) : Track :=
  if t.finalized then t
  else
    let chunks := if t.current_chunk_info.number_of_samples > 0 then t.chunk_infos ++ [t.current_chunk_info]
      else t.chunk_infos
    let durations := if t.mdat_sample_sizes = [] then t.sample_durations
      else t.sample_durations ++ [(t.durationInTimescale - t.prev_timestamp).setWidth 32]
    { t with finalized := true, chunk_infos := chunks, sample_durations := durations }

/-- `Track::setMediaTime` (src/track/track.cpp:154-156). -/
def setMediaTime (t : Track) (media_time : BitVec 64) : Track := { t with media_time }

/-- `Track::getTimescale` (src/track/track.cpp:212-214). -/
def getTimescale (t : Track) : BitVec 64 := t.timescale.setWidth 64

/-- `Track::resetChunkOffsets` (src/track/track.cpp:216-221). -/
def resetChunkOffsets (t : Track) (diff : BitVec 64) : Track :=
  let t := t.finalize
  { t with chunk_infos := t.chunk_infos.map fun c => { c with offset := c.offset + diff } }

/-- `H264Track`'s members after `f` (other tracks have no such members). -/
def modifyH264 (t : Track) (f : H264Config → H264Config) : Track :=
  match t.codec with
  | .h264 width height cfg => { t with codec := .h264 width height (f cfg) }
  | _ => t

/-- The `switch` on the type of a NAL unit (src/track/h264.cpp:97-142). -/
def addNal {σ : Type} [MdatWriter σ] (t : Track) (w : σ) (timestamp : BitVec 64) (header : Byte) (payload : List Byte)
    (is_key : Bool) : Except Err (Track × σ) :=
  match nalKind header with
  | .vcl => .ok (t.addMdatData w timestamp (uint32_to_be (BitVec.ofNat 32 payload.length) ++ payload) is_key)
  | .sei => .ok (t, w)
  | .sps => .ok (t.modifyH264 (·.addSps payload), w)
  | .pps => .ok (t.modifyH264 (·.addPps payload), w)
  | .unsupported => .error (.exc "unsuppoted NalUnit type")

/-- The loop of `H264Track::addData` (src/track/h264.cpp:90-148).  `n` bounds the number of rounds; with one round per byte
it is never reached (`C47_addData_is_safe`). -/
def addAnnexB {σ : Type} [MdatWriter σ] (timestamp : BitVec 64) (data : List Byte) (is_key : Bool) :
    Nat → Track → σ → Nat → Except Err Unit × Track × σ
  | 0, t, w, _ => (.error (.exc "not reached"), t, w)
  | n + 1, t, w, start =>
    match find_next_nal_unit data start with
    | .error e => (.error e, t, w)
    | .ok nu =>
      match t.addNal w timestamp nu.header
          (slice data (nu.start + nu.start_code_size) (nu.end_ - nu.start - nu.start_code_size)) is_key with
      | .error e => (.error e, t, w)
      | .ok (t, w) => if nu.end_ ≥ data.length then (.ok (), t, w) else addAnnexB timestamp data is_key n t w nu.end_

/-- Virtual `Track::addData` (src/track/h264.cpp:82-148, vpx.cpp:74-84, av1.cpp:81-91, opus.cpp:86-97, aac.cpp:100-111,
mp3.cpp:83-93). -/
def addData {σ : Type} [MdatWriter σ] (t : Track) (w : σ) (timestamp : BitVec 64) (data : List Byte) (is_key : Bool) :
    Except Err Unit × Track × σ :=
  match t.codec with
  | .h264 .. => addAnnexB timestamp data is_key (data.length + 1) t w 0
  | _ => let (t, w) := t.addMdatData w timestamp data is_key; (.ok (), t, w)

end Track

/-! ### Sample tables -/

/-- The loop of `make_stts_entries` (src/track/track.cpp:85-96): `duration`, `count` and the entries pushed so far. -/
def sttsGo (duration count : BitVec 32) : List (BitVec 32) → List SttsEntry
  | [] => if count > 0 then [⟨count, duration⟩] else []
  | d :: ds =>
    if duration = d then sttsGo duration (count + 1) ds
    else ⟨count, duration⟩ :: sttsGo d 1 ds

/-- `make_stts_entries` (src/track/track.cpp:79-98). -/
def make_stts_entries : List (BitVec 32) → List SttsEntry
  | [] => []
  | d :: ds => sttsGo d 1 ds

/-- The loop of `make_stsc_entries` (src/track/track.cpp:112-119). -/
def stscGo (samples_per_chunk : Int) (chunk : BitVec 32) : List ChunkInfo → List StscEntry
  | [] => []
  | i :: is =>
    if samples_per_chunk ≠ i.number_of_samples.toNat then
      ⟨chunk, i.number_of_samples, 1⟩ :: stscGo i.number_of_samples.toNat (chunk + 1) is
    else stscGo samples_per_chunk (chunk + 1) is

/-- `make_stsc_entries` (src/track/track.cpp:107-120). -/
def make_stsc_entries (chunks : List ChunkInfo) : List StscEntry := stscGo (-1) 1 chunks

def version0 : FullBox := ⟨0, 0, 0, 0⟩

/-- `make_offset_box` (src/track/track.cpp:128-148). -/
def make_offset_box (chunks : List ChunkInfo) : Box :=
  let use_co64 := match chunks.getLast? with
    | none => false
    | some last => decide (last.offset > 0xffffffff#64)
  if use_co64 then { type := fourcc "co64", data := .co64 ⟨version0, chunks.map (·.offset)⟩ }
  else { type := fourcc "stco", data := .stco ⟨version0, chunks.map (·.offset.setWidth 32)⟩ }

/-! ### The boxes of a track

`new BoxInfo({.parent = p, .box = b})` appends a node with path `path(p) ++ [type(b)]` to the children of `p`
(src/box_info.cpp:16-31, property C52).  As every parent is complete before the next sibling is started, the code builds
the tree below; a `Mk` is a node waiting for the path of its parent. -/

/-- A node, given the path of its parent. -/
abbrev Mk := List BoxType → Tree

/-- A box with the children constructed under it, in order. -/
def mkInfo (type : BoxType) (data : BoxData) (children : List Mk) : Mk := fun path =>
  .node { type, data } (path ++ [type]) (children.map (· (path ++ [type])))

/-- "shiguredo::mp4" -/
def shiguredoMp4 : List Byte :=
  [0x73, 0x68, 0x69, 0x67, 0x75, 0x72, 0x65, 0x64, 0x6f, 0x3a, 0x3a, 0x6d, 0x70, 0x34]

/-- The default `matrix` of `TkhdParameters` and `MvhdParameters` (include/shiguredo/mp4/box/tkhd.hpp:24, mvhd.hpp:27). -/
def unityMatrix : Vector (BitVec 32) 9 := #v[0x10000, 0, 0, 0, 0x10000, 0, 0, 0, 0x40000000]

namespace Codec

/-- A `VisualSampleEntry` with the parameters the tracks give and the defaults of the rest
(include/shiguredo/mp4/box/sample_entry.hpp:29-46). -/
def visualEntry (type : BoxType) (width height : BitVec 32) : VisualSampleEntry :=
  { type, reserved := #v[0, 0, 0, 0, 0, 0], data_reference_index := 1, pre_defined := 0, reserved2 := 0,
    pre_defined2 := #v[0, 0, 0], width := width.setWidth 16, height := height.setWidth 16,
    horizresolution := 0x480000, vertresolution := 0x480000, reserved3 := 0, frame_count := 1,
    compressorname := Vector.replicate 32 0, depth := 24, pre_defined3 := 0xffff }

/-- An `AudioSampleEntry` with the parameters the tracks give and the defaults of the rest
(include/shiguredo/mp4/box/sample_entry.hpp:77-89). -/
def audioEntry (type : BoxType) (sample_rate : BitVec 32) : AudioSampleEntry :=
  { type, reserved := #v[0, 0, 0, 0, 0, 0], data_reference_index := 1, entry_version := 0, reserved2 := #v[0, 0, 0],
    channel_count := 2, sample_size := 16, pre_defined := 0, reserved3 := 0, sample_rate,
    is_quick_time_compatible := false, quick_time_data := [], under_wave := false }

/-- The `avcC` box of `H264Track` (src/track/h264.cpp:45-53; defaults include/shiguredo/mp4/box/avc.hpp:60-73, 88-104). -/
def avcC (cfg : H264Config) : AvcC :=
  { configuration_version := cfg.configuration_version, profile := cfg.profile,
    profile_compatibility := cfg.profile_compatibility, level := cfg.level, reserved := 63,
    length_size_minus_one := 3, reserved2 := 7, sequence_parameter_sets := cfg.sequence_parameter_sets,
    picture_parameter_sets := cfg.picture_parameter_sets, high_profile_fields_enabled := false, reserved3 := 63,
    chroma_format := 0, reserved4 := 31, bit_depth_luma_minus8 := 0, reserved5 := 31, bit_depth_chroma_minus8 := 0,
    sequence_parameter_sets_ext := [] }

/-- The decoder configuration of `AACTrack` and `MP3Track` (src/track/aac.cpp:39-44, mp3.cpp:37-42). -/
def decConfig (object_type : BitVec 8) (buffer_size_db max_bitrate avg_bitrate : BitVec 32) : DecConfigFields :=
  { sub_descriptors_size := 0, object_type_indication := object_type, stream_type := 5, upstream := false,
    reserved := true, buffer_size_db, max_bitrate, avg_bitrate }

/-- `ESDescriptor({.ESID = id})` (src/track/aac.cpp:52-53, mp3.cpp:45). -/
def esFields (id : BitVec 16) : ESFields :=
  { sub_descriptors_size := 0, ESID := id, stream_dependence_flag := false, url_flag := false, ocr_stream_flag := false,
    stream_priority := 0, depends_on_esid := 0, url_string := [], OCRESID := 0 }

/-- The descriptors of `AACTrack` (src/track/aac.cpp:39-57).  The code shares the sub-descriptors by pointer. -/
def aacDescriptors (track_id : BitVec 32) (buffer_size_db max_bitrate avg_bitrate : BitVec 32) : List Descriptor :=
  let dsi := Descriptor.decSpecific [0x11, 0x90]
  let dcd := Descriptor.decConfig (decConfig 0x40 buffer_size_db max_bitrate avg_bitrate) [dsi]
  let scd := Descriptor.slConfig [0x02]
  [.es (esFields ((0xffff#32 &&& track_id).setWidth 16)) [dcd, scd], dcd, dsi, scd]

/-- The descriptors of `MP3Track` (src/track/mp3.cpp:37-48). -/
def mp3Descriptors (buffer_size_db max_bitrate avg_bitrate : BitVec 32) : List Descriptor :=
  let dcd := Descriptor.decConfig (decConfig 0x6b buffer_size_db max_bitrate avg_bitrate) []
  let scd := Descriptor.slConfig [0x02]
  [.es (esFields 0) [dcd, scd], dcd, scd]

/-- `makeStsdBoxInfo` of the six tracks (src/track/h264.cpp:35-55, vpx.cpp:30-46, av1.cpp:34-53, opus.cpp:27-46,
aac.cpp:28-61, mp3.cpp:26-49). -/
def stsd (c : Codec) (track_id timescale : BitVec 32) : Mk :=
  mkInfo (fourcc "stsd") (.stsd ⟨version0, 1⟩) [
    match c with
    | .h264 width height cfg =>
      mkInfo (fourcc "avc1") (.visual (visualEntry (fourcc "avc1") width height))
        [mkInfo (fourcc "avcC") (.avcC (avcC cfg)) []]
    | .vpx vp8 width height max_bitrate avg_bitrate =>
      let type := if vp8 then fourcc "vp08" else fourcc "vp09"
      mkInfo type (.visual (visualEntry type width height))
        [mkInfo (fourcc "vpcC") (.vpcC ⟨⟨1, 0, 0, 0⟩, 0, 21, 8, 1, 0, 2, 2, 2, []⟩) [],
         mkInfo (fourcc "fiel") (.fiel ⟨1, 0⟩) [],
         mkInfo (fourcc "pasp") (.pasp ⟨1, 1⟩) [],
         mkInfo (fourcc "btrt") (.btrt ⟨0, max_bitrate, avg_bitrate⟩) []]
    | .av1 width height cfg =>
      mkInfo (fourcc "av01") (.visual (visualEntry (fourcc "av01") width height))
        [mkInfo (fourcc "av1C") (.av1C
          { marker := 1, version := 1, seq_profile := cfg.seq_profile, seq_level_idx_0 := cfg.seq_level_idx_0,
            seq_tier_0 := cfg.seq_tier_0, high_bitdepth := false, twelve_bit := false, monochrome := false,
            chroma_subsampling_x := cfg.chroma_subsampling_x, chroma_subsampling_y := cfg.chroma_subsampling_y,
            chroma_sample_position := cfg.chroma_sample_position, reserved := 0,
            initial_presentation_delay_present := false, initial_presentation_delay_minus_one := 0,
            config_OBUs := cfg.config_OBUs }) []]
    | .opus pre_skip _ =>
      mkInfo (fourcc "Opus") (.audio (audioEntry (fourcc "Opus") 0xbb800000))
        [mkInfo (fourcc "dOps") (.dOps
          { version := 0, output_channel_count := 2, pre_skip := pre_skip.setWidth 16, input_sample_rate := 48000,
            output_gain := 0, channel_mapping_family := 0, stream_count := 0, coupled_count := 0,
            channel_mapping := [] }) []]
    | .aac buffer_size_db max_bitrate avg_bitrate =>
      mkInfo (fourcc "mp4a") (.audio (audioEntry (fourcc "mp4a") (timescale <<< 16)))
        [mkInfo (fourcc "esds") (.esds ⟨version0, aacDescriptors track_id buffer_size_db max_bitrate avg_bitrate⟩) [],
         mkInfo (fourcc "btrt") (.btrt ⟨0, max_bitrate, avg_bitrate⟩) []]
    | .mp3 buffer_size_db max_bitrate avg_bitrate =>
      mkInfo (fourcc "mp4a") (.audio (audioEntry (fourcc "mp4a") (timescale <<< 16)))
        [mkInfo (fourcc "esds") (.esds ⟨version0, mp3Descriptors buffer_size_db max_bitrate avg_bitrate⟩) []]]

end Codec

namespace Track

/-- `makeTkhdBoxInfo` (src/track/vide.cpp:12-25, src/track/soun.cpp:12-20). -/
def tkhd (t : Track) : Tkhd :=
  let (volume, width, height) := match t.codec with
    | .h264 w h _ | .vpx _ w h _ _ | .av1 w h _ => (0#16, w <<< 16, h <<< 16)
    | _ => (256#16, 0, 0)
  { version := 0, f0 := 0, f1 := 0, f2 := 3, creation_time := t.time_from_epoch, modification_time := t.time_from_epoch,
    track_id := t.track_id, reserved := 0, duration := t.durationInMvhdTimescale, reserved2 := 0, reserved3 := 0,
    layer := 0, alternate_group := 0, volume := volume, reserved4 := 0, matrix := unityMatrix, width := width,
    height := height }

/-- `makeElstBoxInfo` (src/track/track.cpp:174-178). -/
def elst (t : Track) : Elst := ⟨version0, [⟨t.durationInMvhdTimescale, t.media_time, 0x10000⟩]⟩

/-- `makeMdhdBoxInfo` (src/track/track.cpp:184-190). -/
def mdhd (t : Track) : Mdhd :=
  { version := 0, f0 := 0, f1 := 0, f2 := 0, creation_time := t.time_from_epoch, modification_time := t.time_from_epoch,
    timescale := t.timescale, duration := t.durationInTimescale, pad := false, language := ⟨0x75, 0x6e, 0x64⟩,
    pre_defined := 0 }

/-- `getHandlerTypeArray`, `makeHdlrBoxInfo` (src/track/track.cpp:70-77, 192-194). -/
def hdlr (t : Track) : Hdlr :=
  { version := 0, f0 := 0, f1 := 0, f2 := 0, pre_defined := 0,
    handler_type := match t.codec.handler with
      | .vide => fourcc "vide"
      | .soun => fourcc "soun"
    manufacturer := ⟨0, 0, 0, 0⟩, hflags := ⟨0, 0, 0, 0⟩, flags_mask := ⟨0, 0, 0, 0⟩, name := shiguredoMp4,
    padding := [] }

/-- `makeVmhdBoxInfo` / `makeSmhdBoxInfo` (src/track/vide.cpp:27-29, src/track/soun.cpp:22-24). -/
def mediaHeader (t : Track) : Mk :=
  match t.codec.handler with
  | .vide => mkInfo (fourcc "vmhd") (.vmhd ⟨⟨0, 0, 0, 1⟩, 0, #v[0, 0, 0]⟩) []
  | .soun => mkInfo (fourcc "smhd") (.smhd ⟨version0, 0, 0⟩) []

/-- `makeDinfBoxInfo` (src/track/track.cpp:64-68). -/
def dinf : Mk :=
  mkInfo (fourcc "dinf") .empty [mkInfo (fourcc "dref") (.dref ⟨version0, 1⟩)
    [mkInfo (fourcc "url ") (.url ⟨⟨0, 0, 0, 1⟩, []⟩) []]]

/-- `makeSttsBoxInfo` (src/track/track.cpp:100-105). -/
def stts (t : Track) : Mk := mkInfo (fourcc "stts") (.stts ⟨version0, make_stts_entries t.sample_durations⟩) []
/-- `makeStssBoxInfo` (src/track/track.cpp:208-210). -/
def stss (t : Track) : Mk := mkInfo (fourcc "stss") (.stss ⟨version0, t.key_sample_numbers⟩) []
/-- `makeStscBoxInfo` (src/track/track.cpp:122-126). -/
def stsc (t : Track) : Mk := mkInfo (fourcc "stsc") (.stsc ⟨version0, make_stsc_entries t.chunk_infos⟩) []
/-- `makeStszBoxInfo` (src/track/track.cpp:204-206). -/
def stsz (t : Track) : Mk := mkInfo (fourcc "stsz") (.stsz ⟨version0, 0, t.mdat_sample_sizes⟩) []
/-- `makeOffsetBoxInfo` (src/track/track.cpp:150-152). -/
def offsets (t : Track) : Mk :=
  let b := make_offset_box t.chunk_infos
  mkInfo b.type b.data []

/-- `makeSgpdBoxInfo`, `makeSbgpBoxInfo` (src/track/opus.cpp:72-84, src/track/aac.cpp:87-98). -/
def rollGroups (t : Track) (roll_distance : BitVec 16) : List Mk :=
  [mkInfo (fourcc "sgpd") (.sgpd
     { version := 1, f0 := 0, f1 := 0, f2 := 0, grouping_type := fourcc "roll", default_length := 2,
       default_sample_description_index := 0, roll_distances := [⟨0, roll_distance, false⟩],
       alternative_startup_entries := [], visual_random_access_entries := [], temporal_level_entries := [] }) [],
   mkInfo (fourcc "sbgp") (.sbgp
     { version := 0, f0 := 0, f1 := 0, f2 := 0, grouping_type := fourcc "roll", grouping_type_parameter := 0,
       entries := [⟨BitVec.ofNat 32 t.mdat_sample_sizes.length, 1⟩] }) []]

/-- The boxes below `stbl` (the ends of the six `appendTrakBoxInfo`, for example src/track/h264.cpp:73-79,
src/track/opus.cpp:64-71). -/
def stblChildren (t : Track) : List Mk :=
  let stsd := t.codec.stsd t.track_id t.timescale
  match t.codec with
  | .h264 .. | .vpx .. | .av1 .. => [stsd, t.stts, t.stss, t.stsc, t.stsz, t.offsets]
  | .opus _ roll_distance => [stsd, t.stts, t.stsc, t.stsz, t.offsets] ++ t.rollGroups roll_distance
  | .aac .. => [stsd, t.stts, t.stsc, t.stsz, t.offsets] ++ t.rollGroups 0xffff
  | .mp3 .. => [stsd, t.stts, t.stsc, t.stsz, t.offsets]

/-- The tree built by `appendTrakBoxInfo` after its call of `finalize` (src/track/h264.cpp:57-80, vpx.cpp:48-71, av1.cpp:55-78,
opus.cpp:48-71, aac.cpp:63-86, mp3.cpp:51-72). -/
def trak (t : Track) : Mk :=
  mkInfo (fourcc "trak") .empty [
    mkInfo (fourcc "tkhd") (.tkhd t.tkhd) [],
    mkInfo (fourcc "edts") .empty [mkInfo (fourcc "elst") (.elst t.elst) []],
    mkInfo (fourcc "mdia") .empty [
      mkInfo (fourcc "mdhd") (.mdhd t.mdhd) [],
      mkInfo (fourcc "hdlr") (.hdlr t.hdlr) [],
      mkInfo (fourcc "minf") .empty [
        t.mediaHeader,
        dinf,
        mkInfo (fourcc "stbl") .empty t.stblChildren]]]

/-- Virtual `appendTrakBoxInfo(moov)`: the track and the `moov` tree afterwards. -/
def appendTrakBoxInfo (t : Track) (moov : Tree) : Track × Tree :=
  let t := t.finalize
  match moov with
  | .node b p ls => (t, .node b p (ls ++ [t.trak p]))

end Track
end Mp4
