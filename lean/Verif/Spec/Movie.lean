import Verif.Spec.Program
import Verif.Model.Reader

/-! # Specification: what `moov` must say about the tracks of a program

Stated on box trees, independent of the model of the tracks and writers. -/

namespace Mp4.Spec

/-! ### What a program asked for -/

/-- What a program asked for one of its tracks: the constructor arguments, the media time (given to the constructor or last set), and
the buffers given to `addData`. -/
structure TrackAsked where
  params : TrackParameters
  codec : Codec
  mediaTime : BitVec 64
  buffers : List (List Byte)

/-- One call. A track with id 0 is refused. -/
def ask (tracks : List TrackAsked) : Call → List TrackAsked
  | .newTrack p codec => if p.track_id = 0 then tracks else tracks ++ [⟨p, codec, p.media_time, []⟩]
  | .addData i _ data _ => tracks.modify i fun a => { a with buffers := a.buffers ++ [data] }
  | .setMediaTime i m => tracks.modify i fun a => { a with mediaTime := m }
  | _ => tracks

/-- The tracks a program has asked for. -/
def asked (calls : List Call) : List TrackAsked := calls.foldl ask []

/-! ### Walking through a tree -/

/-- The box reached by going from `t` to the first child of each type in turn. -/
def at_ : List BoxType → Tree → Option Tree
  | [], t => some t
  | ty :: tys, t => (child ty t).bind (at_ tys)

/-- The content of the box found that way. -/
def dataAt (path : List String) (t : Tree) : Option BoxData := (at_ (path.map fourcc) t).map (·.box.data)

/-- There is no such box. -/
def noneAt (path : List String) (t : Tree) : Prop := at_ (path.map fourcc) t = none

/-! ### Tables -/

def CodecIsVideo : Codec → Bool
  | .h264 .. | .vpx .. | .av1 .. => true
  | .opus .. | .aac .. | .mp3 .. => false

/-- The tables of a track with the samples `ss` (below 2^32 of them): durations, sizes and key samples. -/
structure Tables (a : TrackAsked) (ss : List Sample) (trak : Tree) : Prop where
  /-- every sample lasts until the next one, the last one until the end of the track -/
  stts : ∃ b, dataAt ["mdia", "minf", "stbl", "stts"] trak = some (.stts b) ∧ b.toFullBox = ⟨0, 0, 0, 0⟩ ∧
    sttsDurations b.entries = durations a.params.durationInTimescale (ss.map (·.timestamp))
  stsz : ∃ b, dataAt ["mdia", "minf", "stbl", "stsz"] trak = some (.stsz b) ∧ b.toFullBox = ⟨0, 0, 0, 0⟩ ∧ b.sample_size = 0 ∧
    b.entry_sizes = ss.map fun s => BitVec.ofNat 32 s.data.length
  /-- video: exactly the key samples -/
  stss : CodecIsVideo a.codec = true → ∃ b, dataAt ["mdia", "minf", "stbl", "stss"] trak = some (.stss b) ∧
    b.toFullBox = ⟨0, 0, 0, 0⟩ ∧ b.sample_numbers.map (·.toNat) = keyNumbers 1 ss
  stsc : ∃ b, dataAt ["mdia", "minf", "stbl", "stsc"] trak = some (.stsc b) ∧ b.toFullBox = ⟨0, 0, 0, 0⟩
  offsets : (∃ b, dataAt ["mdia", "minf", "stbl", "stco"] trak = some (.stco b) ∧ b.toFullBox = ⟨0, 0, 0, 0⟩) ∨
    (∃ b, dataAt ["mdia", "minf", "stbl", "co64"] trak = some (.co64 b) ∧ b.toFullBox = ⟨0, 0, 0, 0⟩)
  /-- audio: no `stss`, which means that every sample is a sync sample (8.6.2) -/
  noStss : CodecIsVideo a.codec = false → noneAt ["mdia", "minf", "stbl", "stss"] trak

/-! ### Parameters -/

/-- How a 64-bit time appears: unsigned and signed ones. -/
structure Precision where
  time : BitVec 64 → BitVec 64
  stime : BitVec 64 → BitVec 64

/-- In the objects: all bits. -/
def inObjects : Precision := ⟨id, id⟩

/-- In a file with version-0 boxes: 32 bits; of a signed number the sign and the low 31 bits. -/
def inFile : Precision :=
  ⟨fun v => BitVec.ofNat 64 (v.toNat % 2 ^ 32),
   fun v => BitVec.ofInt 64 ((v.toNat % 2 ^ 31 : Nat) - (if v.msb then (2 ^ 31 : Int) else 0))⟩

/-- Opus always counts in 48000ths of a second. -/
def timescaleOf (a : TrackAsked) : BitVec 32 :=
  match a.codec with
  | .opus .. => 48000
  | _ => a.params.timescale

/-- Volume, width and height of the track header: 8.8 and 16.16 fixed point numbers. -/
def presentation : Codec → BitVec 16 × BitVec 32 × BitVec 32
  | .h264 w h _ | .vpx _ w h _ _ | .av1 w h _ => (0, w <<< 16, h <<< 16)
  | .opus .. | .aac .. | .mp3 .. => (0x100, 0, 0)

/-- A visual sample entry of the given type and size: 72 dpi, one frame per sample, no compressor name, depth 24 (the field after it is
-1, everything reserved or pre-defined is 0; ISO/IEC 14496-12 12.1.3). -/
def VisualEntry (type : String) (w h : BitVec 32) (entry : Tree) : Prop :=
  entry.box.type = fourcc type ∧ entry.box.data = .visual
    { type := fourcc type, reserved := Vector.replicate 6 0, data_reference_index := 1, pre_defined := 0, reserved2 := 0,
      pre_defined2 := Vector.replicate 3 0, width := w.setWidth 16, height := h.setWidth 16, horizresolution := 72 <<< 16,
      vertresolution := 72 <<< 16, reserved3 := 0, frame_count := 1, compressorname := Vector.replicate 32 0, depth := 0x18,
      pre_defined3 := -1 }

/-- An audio sample entry: two channels, 16 bits, the given rate (16.16), everything reserved or pre-defined 0 (12.2.3). -/
def AudioEntry (type : String) (rate : BitVec 32) (entry : Tree) : Prop :=
  entry.box.type = fourcc type ∧ ∃ v, entry.box.data = .audio v ∧ v.type = fourcc type ∧ v.data_reference_index = 1 ∧
    v.channel_count = 2 ∧ v.sample_size = 16 ∧ v.sample_rate = rate ∧ v.is_quick_time_compatible = false ∧ v.entry_version = 0 ∧
    v.reserved = Vector.replicate 6 0 ∧ v.reserved2 = Vector.replicate 3 0 ∧ v.pre_defined = 0 ∧ v.reserved3 = 0

/-- A decoder configuration for audio (stream type 5). -/
def AudioConfig (objectType : BitVec 8) (bufferSize maxBitrate avgBitrate : BitVec 32) (f : DecConfigFields) : Prop :=
  f.object_type_indication = objectType ∧ f.stream_type = 5 ∧ f.upstream = false ∧ f.reserved = true ∧
  f.buffer_size_db = bufferSize ∧ f.max_bitrate = maxBitrate ∧ f.avg_bitrate = avgBitrate

/-- An ES descriptor without dependency, URL and OCR stream. -/
def PlainES (id : BitVec 16) (f : ESFields) : Prop :=
  f.ESID = id ∧ f.stream_dependence_flag = false ∧ f.url_flag = false ∧ f.ocr_stream_flag = false ∧ f.stream_priority = 0 ∧
  f.url_string = []

/-- The NAL units of a buffer that the track takes: those in front of the first one of an unsupported type. -/
def accepted (us : List (Bool × List Byte)) : List (List Byte) :=
  (us.map (·.2)).takeWhile fun n => decide (1 ≤ nalType n ∧ nalType n ≤ 8)

/-- The configuration record after the buffers, when they are byte streams of well-formed NAL units. -/
def ConfigAfter (buffers : List (List Byte)) (cfg cfg' : H264Config) : Prop :=
  ∀ uss : List (List (Bool × List Byte)), buffers = uss.map annexB → (∀ us ∈ uss, Units us) →
    cfg' = configured cfg (uss.flatMap accepted)

/-- The sample entry of a track. -/
def Entry (a : TrackAsked) (entry : Tree) : Prop :=
  match a.codec with
  | .h264 w h cfg => VisualEntry "avc1" w h entry ∧ ∃ c, dataAt ["avcC"] entry = some (.avcC c) ∧
      c.length_size_minus_one = 3 ∧ c.high_profile_fields_enabled = false ∧ c.reserved = 63 ∧ c.reserved2 = 7 ∧
      ConfigAfter a.buffers cfg
        { configuration_version := c.configuration_version, profile := c.profile,
          profile_compatibility := c.profile_compatibility, level := c.level,
          sequence_parameter_sets := c.sequence_parameter_sets, picture_parameter_sets := c.picture_parameter_sets }
  | .vpx vp8 w h maxBitrate avgBitrate => VisualEntry (if vp8 then "vp08" else "vp09") w h entry ∧
      dataAt ["vpcC"] entry = some (.vpcC
        { version := 1, f0 := 0, f1 := 0, f2 := 0, profile := 0, level := 21, bit_depth := 8,
          chroma_sub_sampling := 1, video_full_range_flag := 0, colour_primaries := 2, transfer_characteristics := 2,
          matrix_coefficients := 2, codec_initialization_data := [] }) ∧
      dataAt ["btrt"] entry = some (.btrt ⟨0, maxBitrate, avgBitrate⟩) ∧ dataAt ["pasp"] entry = some (.pasp ⟨1, 1⟩) ∧
      dataAt ["fiel"] entry = some (.fiel ⟨1, 0⟩)
  | .av1 w h cfg => VisualEntry "av01" w h entry ∧
      dataAt ["av1C"] entry = some (.av1C
        { marker := 1, version := 1, seq_profile := cfg.seq_profile,
          seq_level_idx_0 := cfg.seq_level_idx_0, seq_tier_0 := cfg.seq_tier_0, high_bitdepth := false, twelve_bit := false,
          monochrome := false, chroma_subsampling_x := cfg.chroma_subsampling_x,
          chroma_subsampling_y := cfg.chroma_subsampling_y, chroma_sample_position := cfg.chroma_sample_position,
          reserved := 0, initial_presentation_delay_present := false, initial_presentation_delay_minus_one := 0,
          config_OBUs := cfg.config_OBUs })
  | .opus preSkip _ => AudioEntry "Opus" (48000 <<< 16) entry ∧
      dataAt ["dOps"] entry = some (.dOps
        { version := 0, output_channel_count := 2, pre_skip := preSkip.setWidth 16,
          input_sample_rate := 48000, output_gain := 0, channel_mapping_family := 0, stream_count := 0, coupled_count := 0,
          channel_mapping := [] })
  | .aac bufferSize maxBitrate avgBitrate => AudioEntry "mp4a" (a.params.timescale <<< 16) entry ∧
      dataAt ["btrt"] entry = some (.btrt ⟨0, maxBitrate, avgBitrate⟩) ∧
      ∃ e es ss dc ds, dataAt ["esds"] entry = some (.esds e) ∧ e.toFullBox = ⟨0, 0, 0, 0⟩ ∧
        e.descriptors = [.es es ss, .decConfig dc ds, .decSpecific [0x11, 0x90], .slConfig [2]] ∧
        -- each descriptor covers those nested in it
        Layout.declaredSize (.decConfig dc ds) = 13 + (5 + 2) ∧
        Layout.declaredSize (.es es ss) = 3 + (5 + Layout.declaredSize (.decConfig dc ds)) + (5 + 1) ∧
        PlainES (a.params.track_id.setWidth 16) es ∧ AudioConfig 0x40 bufferSize maxBitrate avgBitrate dc
  | .mp3 bufferSize maxBitrate avgBitrate => AudioEntry "mp4a" (a.params.timescale <<< 16) entry ∧
      ∃ e es ss dc ds, dataAt ["esds"] entry = some (.esds e) ∧ e.toFullBox = ⟨0, 0, 0, 0⟩ ∧
        e.descriptors = [.es es ss, .decConfig dc ds, .slConfig [2]] ∧
        Layout.declaredSize (.decConfig dc ds) = 13 ∧
        Layout.declaredSize (.es es ss) = 3 + (5 + Layout.declaredSize (.decConfig dc ds)) + (5 + 1) ∧
        PlainES 0 es ∧ AudioConfig 0x6b bufferSize maxBitrate avgBitrate dc

/-- The roll distance of a track whose decoder needs one: Opus as asked, AAC -1. -/
def rollDistance : Codec → Option (BitVec 16)
  | .opus _ roll => some roll
  | .aac .. => some (-1)
  | _ => none

/-- The unity matrix (16.16 and 2.30 fixed point). -/
def unity : Vector (BitVec 32) 9 := #v[0x10000, 0, 0, 0, 0x10000, 0, 0, 0, 0x40000000]

/-- "shiguredo::mp4" -/
def toolName : List Byte := [0x73, 0x68, 0x69, 0x67, 0x75, 0x72, 0x65, 0x64, 0x6f, 0x3a, 0x3a, 0x6d, 0x70, 0x34]

/-- A handler box of the given type and name (8.4.3): version, flags and the other fields are 0. -/
def handler (type : String) (name : List Byte) : Hdlr :=
  { version := 0, f0 := 0, f1 := 0, f2 := 0, pre_defined := 0, handler_type := fourcc type, manufacturer := ⟨0, 0, 0, 0⟩,
    hflags := ⟨0, 0, 0, 0⟩, flags_mask := ⟨0, 0, 0, 0⟩, name, padding := [] }

/-- What `trak` says about the track besides its samples. -/
structure Parameters (P : Precision) (a : TrackAsked) (sampleCount : Nat) (trak : Tree) : Prop where
  tkhd : ∃ b, dataAt ["tkhd"] trak = some (.tkhd b) ∧ b.toFullBox = ⟨0, 0, 0, 3⟩ ∧ b.track_id = a.params.track_id ∧
    b.creation_time = P.time a.params.time_from_epoch ∧ b.modification_time = P.time a.params.time_from_epoch ∧
    b.duration = P.time a.params.durationInMvhdTimescale ∧ (b.volume, b.width, b.height) = presentation a.codec ∧
    b.layer = 0 ∧ b.alternate_group = 0 ∧ b.matrix = unity ∧ b.reserved = 0 ∧ b.reserved2 = 0 ∧ b.reserved3 = 0 ∧ b.reserved4 = 0
  /-- one edit: the whole duration, from the media time asked for, at normal rate -/
  elst : ∃ b, dataAt ["edts", "elst"] trak = some (.elst b) ∧ b.toFullBox = ⟨0, 0, 0, 0⟩ ∧
    b.entries = [⟨P.time a.params.durationInMvhdTimescale, P.stime a.mediaTime, 0x10000⟩]
  mdhd : ∃ b, dataAt ["mdia", "mdhd"] trak = some (.mdhd b) ∧ b.toFullBox = ⟨0, 0, 0, 0⟩ ∧ b.timescale = timescaleOf a ∧
    b.duration = P.time a.params.durationInTimescale ∧ b.creation_time = P.time a.params.time_from_epoch ∧
    b.modification_time = P.time a.params.time_from_epoch ∧ b.language = ⟨0x75, 0x6e, 0x64⟩ ∧ b.pad = false ∧ b.pre_defined = 0
  /-- the handler, named after the library -/
  hdlr : dataAt ["mdia", "hdlr"] trak = some (.hdlr (handler (if CodecIsVideo a.codec then "vide" else "soun") toolName))
  /-- the media header that belongs to the handler -/
  header : if CodecIsVideo a.codec then
      dataAt ["mdia", "minf", "vmhd"] trak = some (.vmhd ⟨⟨0, 0, 0, 1⟩, 0, #v[0, 0, 0]⟩) ∧ noneAt ["mdia", "minf", "smhd"] trak
    else dataAt ["mdia", "minf", "smhd"] trak = some (.smhd ⟨⟨0, 0, 0, 0⟩, 0, 0⟩) ∧ noneAt ["mdia", "minf", "vmhd"] trak
  /-- the media data is in the same file -/
  dref : ∃ u : Url, dataAt ["mdia", "minf", "dinf", "dref"] trak = some (.dref ⟨⟨0, 0, 0, 0⟩, 1⟩) ∧
    dataAt ["mdia", "minf", "dinf", "dref", "url "] trak = some (.url u) ∧ u.toFullBox = ⟨0, 0, 0, 1⟩
  /-- one sample entry -/
  stsd : ∃ d entry, at_ (["mdia", "minf", "stbl", "stsd"].map fourcc) trak = some d ∧
    d.box.data = .stsd ⟨⟨0, 0, 0, 0⟩, 1⟩ ∧ d.leafs = [entry] ∧ Entry a entry
  /-- all samples in one group with the roll distance -/
  roll : ∀ r, rollDistance a.codec = some r → ∃ g s, dataAt ["mdia", "minf", "stbl", "sgpd"] trak = some (.sgpd g) ∧
    g.grouping_type = fourcc "roll" ∧ g.roll_distances = [⟨0, r, false⟩] ∧
    dataAt ["mdia", "minf", "stbl", "sbgp"] trak = some (.sbgp s) ∧ s.grouping_type = fourcc "roll" ∧
    s.entries = [⟨BitVec.ofNat 32 sampleCount, 1⟩] ∧
    -- version 1 with a default length (2 bytes per entry); version 0
    g.toFullBox = ⟨1, 0, 0, 0⟩ ∧ g.default_length = 2 ∧ s.toFullBox = ⟨0, 0, 0, 0⟩
  noRoll : rollDistance a.codec = none → noneAt ["mdia", "minf", "stbl", "sgpd"] trak ∧
    noneAt ["mdia", "minf", "stbl", "sbgp"] trak

/-- What `moov` says besides its tracks, for a writer with the given time scale, duration and clock. -/
structure Movie (P : Precision) (timescale : BitVec 32) (duration now : BitVec 64) (moov : Tree) : Prop where
  mvhd : ∃ b, dataAt ["mvhd"] moov = some (.mvhd b) ∧ b.toFullBox = ⟨0, 0, 0, 0⟩ ∧ b.timescale = timescale ∧
    b.duration = P.time duration ∧ b.creation_time = P.time now ∧ b.modification_time = P.time now ∧ b.rate = 0x10000 ∧
    b.volume = 0x100 ∧ b.matrix = unity ∧ b.reserved = 0 ∧ b.reserved2 = 0 ∧ b.reserved3 = 0 ∧ b.pre_defined = Vector.replicate 6 0
  /-- the user data is a metadata list -/
  meta_ : dataAt ["udta", "meta"] moov = some (.metaBox ⟨⟨0, 0, 0, 0⟩⟩) ∧
    dataAt ["udta", "meta", "hdlr"] moov = some (.hdlr (handler "mdir" []))
  /-- the writing application, as text -/
  tool : ∃ t, at_ [fourcc "udta", fourcc "meta", fourcc "ilst", ⟨0xa9, 0x74, 0x6f, 0x6f⟩, fourcc "data"] moov = some t ∧
    t.box.data = .data ⟨1, 0, toolName⟩

/-! ### Which boxes there are -/

mutual
/-- The types of a box and of all boxes in it, in file order, with their depth. -/
def outline (depth : Nat) : Tree → List (Nat × BoxType)
  | .node b _ ls => (depth, b.type) :: outlineList (depth + 1) ls
def outlineList (depth : Nat) : List Tree → List (Nat × BoxType)
  | [] => []
  | t :: ts => outline depth t ++ outlineList depth ts
end

def lines (l : List (Nat × String)) : List (Nat × BoxType) := l.map fun p => (p.1, fourcc p.2)

/-- The sample entry with what belongs to its codec. -/
def entryOutline : Codec → List (Nat × String)
  | .h264 .. => [(6, "avc1"), (7, "avcC")]
  | .vpx vp8 .. => [(6, if vp8 then "vp08" else "vp09"), (7, "vpcC"), (7, "fiel"), (7, "pasp"), (7, "btrt")]
  | .av1 .. => [(6, "av01"), (7, "av1C")]
  | .opus .. => [(6, "Opus"), (7, "dOps")]
  | .aac .. => [(6, "mp4a"), (7, "esds"), (7, "btrt")]
  | .mp3 .. => [(6, "mp4a"), (7, "esds")]

/-- The boxes of a track: those ISO/IEC 14496-12 (6.2.3) makes mandatory, each once, an edit list, `stss` for video and roll groups for the
codecs that need them. `wide`: 64-bit chunk offsets. -/
def trakOutline (c : Codec) (wide : Bool) : List (Nat × String) :=
  [(1, "trak"), (2, "tkhd"), (2, "edts"), (3, "elst"), (2, "mdia"), (3, "mdhd"), (3, "hdlr"), (3, "minf"),
   (4, if CodecIsVideo c then "vmhd" else "smhd"), (4, "dinf"), (5, "dref"), (6, "url "), (4, "stbl"), (5, "stsd")] ++
  entryOutline c ++ [(5, "stts")] ++ (if CodecIsVideo c then [(5, "stss")] else []) ++ [(5, "stsc"), (5, "stsz")] ++
  [(5, if wide then "co64" else "stco")] ++ (if (rollDistance c).isSome then [(5, "sgpd"), (5, "sbgp")] else [])

/-- `moov` consists of the movie header, the tracks in order, and the user data with the name of the tool. -/
def MovieOutline (calls : List Call) (moov : Tree) : Prop :=
  ∃ wide : List Bool, wide.length = (asked calls).length ∧
    outline 0 moov = lines [(0, "moov"), (1, "mvhd")] ++
      ((asked calls).zip wide).flatMap (fun p => lines (trakOutline p.1.codec p.2)) ++
      lines [(1, "udta"), (2, "meta"), (3, "hdlr"), (3, "ilst")] ++ [(4, ⟨0xa9, 0x74, 0x6f, 0x6f⟩)] ++ lines [(5, "data")]

/-- `moov` has one `trak` per track asked for, in order, and `R` holds between what was asked, the track's samples and its `trak`. -/
def EachTrak (R : TrackAsked → List Sample → Tree → Prop) (calls : List Call) (es : List Event) (moov : Tree) : Prop :=
  (traks moov).length = (asked calls).length ∧
  ∀ (i : Nat) (a : TrackAsked) (trak : Tree), (asked calls)[i]? = some a → (traks moov)[i]? = some trak → R a (samplesOf i es) trak

/-- The values of the codec's fields fit the widths of the boxes that carry them. -/
def CodecFits (a : TrackAsked) : Prop :=
  match a.codec with
  | .h264 _ _ cfg => ∃ uss : List (List (Bool × List Byte)), a.buffers = uss.map annexB ∧ (∀ us ∈ uss, Units us) ∧
      let c := configured cfg (uss.flatMap accepted)
      (c.sequence_parameter_sets.length < 32 ∧ ∀ n ∈ c.sequence_parameter_sets, n.length < 2 ^ 16) ∧
      (c.picture_parameter_sets.length < 256 ∧ ∀ n ∈ c.picture_parameter_sets, n.length < 2 ^ 16)
  | .vpx .. => True
  | .av1 _ _ cfg => cfg.seq_profile.toNat < 2 ^ 3 ∧ cfg.seq_level_idx_0.toNat < 2 ^ 5 ∧ cfg.seq_tier_0.toNat < 2 ∧
      cfg.chroma_subsampling_x.toNat < 2 ∧ cfg.chroma_subsampling_y.toNat < 2 ∧ cfg.chroma_sample_position.toNat < 2 ^ 2
  | .opus .. => True
  | .aac bufferSize _ _ | .mp3 bufferSize _ _ => bufferSize.toNat < 2 ^ 24

/-! ### Reading a finished file -/

/-- The first box of a file with the given type. -/
def topLevel (type : String) (forest : List Tree) : Option Tree := forest.find? fun c => decide (c.box.type = fourcc type)

/-- The reader returns normally with boxes of the given types in this order, among them `ftyp` and `mdat` with the given content, and
`moov`. -/
def ReadsMovie (sr : SimpleReader) (types : List String) (ftyp : Ftyp) (samples : List Byte) (moov : Tree) : Prop :=
  ∃ log forest, sr.read = some ⟨log, .ok forest⟩ ∧ forest.map (·.box.type) = types.map fourcc ∧
    (topLevel "ftyp" forest).map (·.box.data) = some (.ftyp ftyp) ∧
    (topLevel "mdat" forest).map (·.box.data) = some (.opaq ⟨samples⟩) ∧
    topLevel "moov" forest = some moov

/-- The types of the boxes of a file by `SimpleWriter`. -/
def simpleTypes (samples : List Byte) : List String :=
  if samples.length + 8 < 2 ^ 32 then ["ftyp", "free", "mdat", "moov"] else ["ftyp", "mdat", "moov"]

end Mp4.Spec
