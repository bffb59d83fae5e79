import Verif.Model.Box
import Verif.Model.Reader
import Verif.Spec.LayoutBox
import Verif.Spec.Tree
import Verif.Spec.Reader
import Verif.Props.RoundTripA
import Verif.Props.RoundTripB

/-! # What comes back when a box is written and read, for every box class

`env` are the members of the fresh object the reader fills that a given box does not mention. -/

namespace Mp4

/-- The fields of the box fit the widths and counts of its class, so that writing loses nothing beyond what `stored` says.
`leaf`: the box has no children (boxes that extend to the end of their payload must not have any); `t` is its type;
`wave`: it lies in a `wave` box. -/
def BoxData.Survives (env : Env) (t : BoxType) (wave leaf : Prop) : BoxData → Prop
  | .btrt _ | .pasp _ | .fiel _ | .smhd _ | .vmhd _ | .mfhd _ | .mfro _ | .dref _ | .stsd _ | .trex _ => True
  | .iods b => b.descriptor_length = 7
  | .mvhd _ | .tkhd _ | .mehd _ | .tfdt _ | .tfhd _ | .metaBox _ | .empty => True
  | .mdhd b => LangOk b.language
  | .elst b => b.entries.length < 2 ^ 32
  | .sidx b => b.references.length < 2 ^ 16 ∧ ∀ r ∈ b.references, r.reference_size.toNat < 2 ^ 31 ∧ r.sap_type.toNat < 2 ^ 3 ∧
      r.sap_delta_time.toNat < 2 ^ 28
  | .stts b => b.entries.length < 2 ^ 32
  | .ctts b => b.entries.length < 2 ^ 32 ∧
      ∀ e ∈ b.entries, -(2 ^ 31) ≤ e.sample_offset.toInt ∧ e.sample_offset.toInt < 2 ^ 31
  | .stsc b => b.entries.length < 2 ^ 32
  | .stco b => b.chunk_offsets.length < 2 ^ 32
  | .co64 b => b.chunk_offsets.length < 2 ^ 32
  | .stss b => b.sample_numbers.length < 2 ^ 32
  | .stsz b => b.sample_size = 0 → b.entry_sizes.length < 2 ^ 32
  | .sdtp b => leaf ∧ ∀ s ∈ b.samples, s.is_leading.toNat < 4 ∧ s.sample_depends_on.toNat < 4 ∧
      s.sample_is_depended_on.toNat < 4 ∧ s.sample_has_redundancy.toNat < 4
  | .sbgp b => b.entries.length < 2 ^ 32
  | .trun b => b.entries.length < 2 ^ 32 ∧ ∀ e ∈ b.entries,
      (-(2 ^ 31) ≤ e.sample_composition_time_offset.toInt ∧ e.sample_composition_time_offset.toInt < 2 ^ 31) ∧
      (b.checkFlag 0x100#32 = false → e.sample_duration = 0) ∧ (b.checkFlag 0x200#32 = false → e.sample_size = 0) ∧
      (b.checkFlag 0x400#32 = false → e.sample_flags = 0) ∧
      (b.checkFlag 0x800#32 = false → e.sample_composition_time_offset = 0)
  | .tfra b => (b.length_size_of_traf_num.toNat < 4 ∧ b.length_size_of_trun_num.toNat < 4 ∧
      b.length_size_of_sample_num.toNat < 4) ∧ b.reserved.toNat < 2 ^ 26 ∧ b.entries.length < 2 ^ 32 ∧
      ∀ e ∈ b.entries,
        (b.version = 0#8 → e.time.toNat < 2 ^ 32) ∧ (b.version = 0#8 → e.moof_offset.toNat < 2 ^ 32) ∧
        e.traf_number.toNat < 2 ^ ((b.length_size_of_traf_num.toNat + 1) * 8) ∧
        e.trun_number.toNat < 2 ^ ((b.length_size_of_trun_num.toNat + 1) * 8) ∧
        e.sample_number.toNat < 2 ^ ((b.length_size_of_sample_num.toNat + 1) * 8)
  | .avcC b => leaf ∧
      (b.reserved.toNat < 2 ^ 6 ∧ b.length_size_minus_one.toNat < 2 ^ 2 ∧ b.reserved2.toNat < 2 ^ 3) ∧
      (b.sequence_parameter_sets.length < 32 ∧ ∀ n ∈ b.sequence_parameter_sets, n.length < 2 ^ 16) ∧
      (b.picture_parameter_sets.length < 256 ∧ ∀ n ∈ b.picture_parameter_sets, n.length < 2 ^ 16) ∧
      (b.high_profile_fields_enabled = true →
        b.profile.toNat ∈ [86, 100, 110, 118, 122, 128, 138, 144, 244] ∧
        (b.sequence_parameter_sets_ext.length < 256 ∧ ∀ n ∈ b.sequence_parameter_sets_ext, n.length < 2 ^ 16) ∧
        b.reserved3.toNat < 2 ^ 6 ∧ b.chroma_format.toNat < 2 ^ 2 ∧ b.reserved4.toNat < 2 ^ 5 ∧
        b.bit_depth_luma_minus8.toNat < 2 ^ 3 ∧ b.reserved5.toNat < 2 ^ 5 ∧ b.bit_depth_chroma_minus8.toNat < 2 ^ 3)
  | .av1C b => leaf ∧ b.Fits
  | .vpcC b => (b.bit_depth.toNat < 2 ^ 4 ∧ b.chroma_sub_sampling.toNat < 2 ^ 3 ∧ b.video_full_range_flag.toNat < 2 ^ 1) ∧
      b.codec_initialization_data.length < 2 ^ 16 ∧ (b.version = 0#8 → b.codec_initialization_data = [])
  | .dOps b => (b.channel_mapping_family ≠ 0#8 → b.channel_mapping.length = b.output_channel_count.toNat) ∧
      (b.channel_mapping_family = 0#8 → b.stream_count = 0 ∧ b.coupled_count = 0 ∧ b.channel_mapping = [])
  | .visual b => b.type = t
  | .audio b => b.type = t ∧ ¬ wave ∧
      (b.is_quick_time_compatible = false ∧ (t = fourcc "Opus" ∨ b.entry_version = 0) ∨
       b.is_quick_time_compatible = true ∧ t ≠ fourcc "Opus" ∧
        (b.entry_version = 1 ∧ b.quick_time_data.length = 16 ∨ b.entry_version = 2 ∧ b.quick_time_data.length = 36))
  | .hdlr b => leaf ∧ b.padding = [] ∧ b.pre_defined = 0 ∧ ∀ c ∈ b.name, c ≠ 0
  | .url b => ∀ c ∈ b.location, c ≠ 0
  | .urn b => (∀ c ∈ b.name, c ≠ 0) ∧ ∀ c ∈ b.location, c ≠ 0
  | .emsg b => leaf ∧ (∀ c ∈ b.scheme_uri, c ≠ 0) ∧ (∀ c ∈ b.value, c ≠ 0) ∧ (b.version = 0 → b.presentation_time.toNat < 2 ^ 32)
  | .data _ | .ftyp _ | .opaq _ => leaf
  | .colr b => leaf ∧ b.reserved.toNat < 2 ^ 7
  | .pssh b => b.kids.length < 2 ^ 32 ∧ b.data.length < 2 ^ 32
  | .esds b => leaf ∧ ∀ x ∈ b.descriptors, x.UrlOk ∧ x.Fits
  | .sgpd b => b.Ok env.sgpd

/-- What a reader has after reading the box. -/
def BoxData.stored (env : Env) (t : BoxType) : BoxData → BoxData
  | .mvhd b => .mvhd { b with creation_time := keptTime b.toFullBox b.creation_time,
                              modification_time := keptTime b.toFullBox b.modification_time,
                              duration := keptTime b.toFullBox b.duration }
  | .tkhd b => .tkhd { b with creation_time := keptTime b.toFullBox b.creation_time,
                              modification_time := keptTime b.toFullBox b.modification_time,
                              duration := keptTime b.toFullBox b.duration }
  | .mdhd b => .mdhd { b with creation_time := keptTime b.toFullBox b.creation_time,
                              modification_time := keptTime b.toFullBox b.modification_time,
                              duration := keptTime b.toFullBox b.duration }
  | .mehd b => .mehd { b with fragment_duration := keptTime b.toFullBox b.fragment_duration }
  | .tfdt b => .tfdt { b with base_media_decode_time := keptTime b.toFullBox b.base_media_decode_time }
  | .elst b => .elst { b with entries := b.entries.map fun e => { e with
        track_duration := keptTime b.toFullBox e.track_duration,
        media_time := keptSTime b.toFullBox e.media_time } }
  | .sidx b => .sidx { b with earliest_presentation_time := keptTime b.toFullBox b.earliest_presentation_time,
                              first_offset := keptTime b.toFullBox b.first_offset }
  | .stsz b => .stsz (if b.sample_size = 0 then b else { b with entry_sizes := [] })
  | .sbgp b => .sbgp { b with grouping_type_parameter := if b.version = 0#8 then env.sbgp else b.grouping_type_parameter }
  | .tfhd b => .tfhd (b.stored env.tfhd)
  | .trun b => .trun (b.stored env.trun)
  | .avcC b => .avcC (if b.high_profile_fields_enabled then b else
      { b with reserved3 := env.avcC.reserved3, chroma_format := env.avcC.chroma_format, reserved4 := env.avcC.reserved4,
               bit_depth_luma_minus8 := env.avcC.bit_depth_luma_minus8, reserved5 := env.avcC.reserved5,
               bit_depth_chroma_minus8 := env.avcC.bit_depth_chroma_minus8,
               sequence_parameter_sets_ext := env.avcC.sequence_parameter_sets_ext })
  | .audio b => .audio { b with type := t, under_wave := false,
                                quick_time_data := if b.is_quick_time_compatible then b.quick_time_data else env.audio.quick_time_data }
  | .url b => .url (b.stored env.url)
  | .urn b => .urn (b.stored env.urn)
  | .colr b => .colr (b.stored env.colr)
  | .pssh b => .pssh (b.stored env.pssh)
  | .metaBox _ => .metaBox ⟨⟨0, 0, 0, 0⟩⟩
  | .esds b => .esds { b with descriptors := b.descriptors.map (·.stored env.esds) }
  | .sgpd b => .sgpd (b.stored env.sgpd)
  | d => d

namespace Tree

mutual
/-- Every box of the tree, read by `sr` at offset `o` (in a `wave` box when `wave`), is of the class registered for its type, or opaque when
none is, and survives. -/
def Surviving (sr : SimpleReader) (wave : Bool) (o : Nat) : Tree → Prop
  | .node b p ls =>
    sr.ReadsWith b.type b.data.kind ∧
    b.data.Survives (sr.env o) b.type wave (ls = []) ∧
    SurvivingList sr (sr.typeRead b.type = fourcc "wave") (o + Spec.headerSize (Tree.node b p ls).inner + b.data.getDataSize) ls
def SurvivingList (sr : SimpleReader) (wave : Bool) (o : Nat) : List Tree → Prop
  | [] => True
  | t :: ts => Surviving sr wave o t ∧ SurvivingList sr wave (o + t.total) ts
end

mutual
/-- What the reader returns for the tree written at `o` below `path`. -/
def readBack (sr : SimpleReader) (path : List BoxType) (o : Nat) : Tree → Tree
  | .node b p ls =>
    .node ⟨sr.typeRead b.type, b.data.stored (sr.env o) b.type,
        some ⟨o, (Tree.node b p ls).total, Spec.headerSize (Tree.node b p ls).inner, b.type, false⟩⟩
      (path ++ [sr.typeRead b.type])
      (readBackList sr (path ++ [sr.typeRead b.type]) (o + Spec.headerSize (Tree.node b p ls).inner + b.data.getDataSize) ls)
def readBackList (sr : SimpleReader) (path : List BoxType) (o : Nat) : List Tree → List Tree
  | [] => []
  | t :: ts => readBack sr path o t :: readBackList sr path (o + t.total) ts
end

end Tree
end Mp4
