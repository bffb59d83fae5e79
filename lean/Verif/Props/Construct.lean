import Verif.Lemmas.Construct

/-!
# C70: a box built from parameters contains those parameters

`Construction` (Model/Construct) is a call of a box constructor; `Built` (Spec/Construct) says, from the parameters alone,
which type and which fields the box has.
-/

namespace Mp4
open Built

/-- A box built from parameters has the type of its class and its content is exactly the fields of the format, each
with the value of its parameter; the size it announces is the size of that content. -/
theorem C70_content (c : Construction) (b : Box) (h : c.run = .ok b) (hw : ¬ Unwritable c) (hl : Letters c) :
    b.type = Built.type c ∧ b.header = none ∧
    b.data.writeData = ⟨bitsOf (content c), .ok (bitsOf (content c)).length⟩ ∧
    8 * b.data.getDataSize = (bitsOf (content c)).length := by
  have hwr := (writable_iff c b h).mpr hw
  have hlo := letters_iff c b h hl
  have hlay := layout_eq c b h hl
  have hwe := BoxData.write_eq b.data hwr hlo
  have hs := BoxData.size_eq b.data hwr hlo
  rw [hlay] at hwe hs
  exact ⟨type_eq c b h, header_eq c b h, by rw [hwe, hs], hs.symm⟩

/-- Writing the content of a built box throws exactly for the three kinds of parameters the format has no room for. -/
theorem C70_unwritable (c : Construction) (b : Box) (h : c.run = .ok b) :
    (∃ e, b.data.writeData.res = .error e) ↔ Unwritable c := by
  constructor
  · intro ⟨e, he⟩
    refine Classical.byContradiction fun hn => ?_
    have hwr := (writable_iff c b h).mpr hn
    have := (BoxData.write_res b.data hwr).1
    rw [he] at this
    cases this
  · intro hu
    cases hr : b.data.writeData.res with
    | error e => exact ⟨e, rfl⟩
    | ok n => exact absurd hu ((writable_iff c b h).mp (BoxData.writable_of_ok b.data hr))

/-- A constructor throws exactly when it is the one of an audio sample entry and the length of the QuickTime data does
not fit the sound description version; in particular no version 1 or 2 entry outside `wave` can be built without the
QuickTime flag. -/
theorem C70_refused (c : Construction) : (∃ e, c.run = .error e) ↔ Refused c := by
  cases c with
  | audio p =>
    have key : (∃ e, (Construction.audio p).run = .error e) ↔
        (AudioSampleEntry.init p).checkLengthOfQuickTimeData p.quick_time_data.length = false := by
      rw [Construction.run, AudioSampleEntry.new]
      show (∃ e, (bind (if (AudioSampleEntry.init p).checkLengthOfQuickTimeData p.quick_time_data.length then _ else _) _)
        = Except.error e) ↔ _
      cases (AudioSampleEntry.init p).checkLengthOfQuickTimeData p.quick_time_data.length
      · exact ⟨fun _ => rfl, fun _ => ⟨_, rfl⟩⟩
      · exact ⟨fun ⟨e, he⟩ => (by cases he), fun h => (by cases h)⟩
    rw [key, Refused, AudioSampleEntry.checkLengthOfQuickTimeData]
    show (if !p.is_quick_time_compatible && decide (p.quick_time_data.length > 0) then false
      else if p.under_wave then true
      else if p.entry_version = 1 ∧ p.quick_time_data.length ≠ 16 then false
      else if p.entry_version = 2 ∧ p.quick_time_data.length ≠ 36 then false else true) = false ↔ _
    have hne : p.quick_time_data ≠ [] ↔ p.quick_time_data.length > 0 := List.length_pos_iff.symm
    rw [hne]
    cases hq : p.is_quick_time_compatible <;> cases hu : p.under_wave <;>
      by_cases h0 : p.quick_time_data.length > 0 <;> by_cases h1 : p.entry_version = 1 <;>
      by_cases h2 : p.entry_version = 2 <;> by_cases h3 : p.quick_time_data.length = 16 <;>
      by_cases h4 : p.quick_time_data.length = 36 <;> simp_all
  | _ => exact ⟨fun ⟨e, he⟩ => (by cases he), fun h => h.elim⟩

private theorem roll_code : fourcc "roll" = ⟨114, 111, 108, 108⟩ := by decide +kernel

/-- The values of the parameters a caller leaves out. -/
theorem C70_defaults :
    (∀ c m d n, let p : MvhdParameters := { creation_time := c, modification_time := m, duration := d, next_track_id := n };
      p.version = 0 ∧ p.flags = 0 ∧ p.timescale = 600 ∧ p.rate = 0x00010000 ∧ p.volume = 0x0100 ∧
      p.matrix.toList = [0x00010000, 0, 0, 0, 0x00010000, 0, 0, 0, 0x40000000] ∧ p.pre_defined.toList = [0, 0, 0, 0, 0, 0]) ∧
    (∀ c m i d, let p : TkhdParameters := { creation_time := c, modification_time := m, track_id := i, duration := d };
      p.version = 0 ∧ p.flags = 0 ∧ p.layer = 0 ∧ p.alternate_group = 0 ∧ p.volume = 0x0100 ∧
      p.matrix.toList = [0x00010000, 0, 0, 0, 0x00010000, 0, 0, 0, 0x40000000] ∧ p.width = 0 ∧ p.height = 0) ∧
    (∀ c m t d, let p : MdhdParameters := { creation_time := c, modification_time := m, timescale := t, duration := d };
      p.version = 0 ∧ p.flags = 0 ∧ p.pad = false ∧ p.language = ⟨117, 110, 100⟩ ∧ p.pre_defined = 0) ∧
    (∀ t r w h, let p : VisualSampleEntryParameters := { type := t, data_reference_index := r, width := w, height := h };
      p.pre_defined = 0 ∧ p.pre_defined2.toList = [0, 0, 0] ∧ p.horizresolution = 0x00480000 ∧
      p.vertresolution = 0x00480000 ∧ p.frame_count = 1 ∧ p.compressorname.toList = List.replicate 32 0 ∧ p.depth = 24 ∧
      p.pre_defined3 = 0xffff) ∧
    (∀ t r v c s f, let p : AudioSampleEntryParameters :=
        { type := t, data_reference_index := r, entry_version := v, channel_count := c, sample_size := s, sample_rate := f };
      p.pre_defined = 0 ∧ p.is_quick_time_compatible = false ∧ p.quick_time_data = [] ∧ p.under_wave = false) ∧
    (∀ d, let p : ElstEntryParameters := { track_duration := d }; p.media_time = 0 ∧ p.media_rate = 0x00010000) ∧
    (∀ f s, let p : StscEntryParameters := { first_chunk := f, samples_per_chunk := s }; p.sample_description_index = 1) ∧
    (∀ e, let p : StszParameters := { entry_sizes := e }; p.version = 0 ∧ p.flags = 0 ∧ p.sample_size = 0) ∧
    (∀ e, let p : SbgpParameters := { entries := e };
      p.version = 0 ∧ p.flags = 0 ∧ p.grouping_type = ⟨114, 111, 108, 108⟩ ∧ p.grouping_type_parameter = 0) ∧
    (let p : SgpdParameters := {};
      p.version = 1 ∧ p.flags = 0 ∧ p.grouping_type = ⟨114, 111, 108, 108⟩ ∧ p.default_length = 2 ∧
      p.default_sample_description_index = 0 ∧ p.roll_distances = [] ∧ p.alternative_startup_entries = [] ∧
      p.visual_random_access_entries = [] ∧ p.temporal_level_entries = []) ∧
    (∀ r, let p : RollDistanceParameters := { roll_distance := r }; p.description_length = 0) ∧
    (∀ c p l v, let p : AVCDecoderConfigurationParameters :=
        { configuration_version := c, profile := p, profile_compatibility := l, level := v };
      p.length_size_minus_one = 3 ∧ p.sequence_parameter_sets = [] ∧ p.picture_parameter_sets = [] ∧
      p.high_profile_fields_enabled = false ∧ p.chroma_format = 0 ∧ p.bit_depth_luma_minus8 = 0 ∧
      p.bit_depth_chroma_minus8 = 0 ∧ p.sequence_parameter_sets_ext = []) ∧
    (∀ s l t x y q, let p : AV1CodecConfigurationParameters :=
        { seq_profile := s, seq_level_idx_0 := l, seq_tier_0 := t, chroma_subsampling_x := x, chroma_subsampling_y := y,
          chroma_sample_position := q };
      p.marker = 1 ∧ p.version = 1 ∧ p.high_bitdepth = false ∧ p.twelve_bit = false ∧ p.monochrome = false ∧
      p.initial_presentation_delay_present = false ∧ p.initial_presentation_delay_minus_one = 0 ∧ p.config_OBUs = []) ∧
    (let p : VPCodecConfigurationParameters := {};
      p.version = 1 ∧ p.flags = 0 ∧ p.profile = 0 ∧ p.level = 21 ∧ p.bit_depth = 8 ∧ p.chroma_sub_sampling = 1 ∧
      p.video_full_range_flag = 0 ∧ p.colour_primaries = 2 ∧ p.transfer_characteristics = 2 ∧ p.matrix_coefficients = 2 ∧
      p.codec_initialization_data = []) ∧
    (∀ n s r g f, let p : DOpsParameters :=
        { output_channel_count := n, pre_skip := s, input_sample_rate := r, output_gain := g, channel_mapping_family := f };
      p.version = 0 ∧ p.channel_mapping_table.stream_count = 0 ∧ p.channel_mapping_table.coupled_count = 0 ∧
      p.channel_mapping_table.channel_mapping = []) ∧
    (let p : PixelAspectRatioParameters := {}; p.h_spacing = 1 ∧ p.v_spacing = 1) ∧
    (let p : FielParameters := {}; p.field_count = 1 ∧ p.field_ordering = 0) ∧
    (let p : SmhdParameters := {}; p.version = 0 ∧ p.flags = 0 ∧ p.balance = 0) ∧
    (let p : VmhdParameters := {}; p.version = 0 ∧ p.flags = 0 ∧ p.graphicsmode = 0 ∧ p.opcolor.toList = [0, 0, 0]) ∧
    (∀ t n, let p : HdlrParameters := { handler_type := t, name := n };
      p.version = 0 ∧ p.flags = 0 ∧ p.pre_defined = 0 ∧ p.padding = []) ∧
    (∀ d, let p : DataParameters := { data := d }; p.data_type = 1 ∧ p.data_lang = 0) ∧
    (∀ t o a b c d e, let p : IodsParameters :=
        { type_tag := t, OD_ID := o, OD_profile_level := a, scene_profile_level := b, audio_profile_level := c,
          video_profile_level := d, graphics_profile_level := e };
      p.version = 0 ∧ p.flags = 0 ∧ p.descriptor_length = 7) ∧
    (let p : ESDescriptorParameters := {};
      p.sub_descriptors_size = 0 ∧ p.ESID = 0 ∧ p.stream_dependence_flag = false ∧ p.url_flag = false ∧
      p.ocr_stream_flag = false ∧ p.stream_priority = 0 ∧ p.depends_on_esid = 0 ∧ p.url_string = [] ∧ p.OCRESID = 0) ∧
    (∀ o s b m a, let p : DecoderConfigDescriptorParameters :=
        { object_type_indication := o, stream_type := s, buffer_size_db := b, max_bitrate := m, avg_bitrate := a };
      p.sub_descriptors_size = 0 ∧ p.upstream = false ∧ p.reserved = true) ∧
    (∀ i, let p : TfhdParameters := { track_id := i };
      p.version = 0 ∧ p.flags = 0 ∧ p.base_data_offset = 0 ∧ p.sample_description_index = 0 ∧
      p.default_sample_duration = 0 ∧ p.default_sample_size = 0 ∧ p.default_sample_flags = 0) ∧
    (let p : TrunParameters := {};
      p.version = 0 ∧ p.flags = 0 ∧ p.data_offset = 0 ∧ p.first_sample_flags = 0 ∧ p.entries = []) ∧
    (let p : TrunEntryParameters := {};
      p.sample_duration = 0 ∧ p.sample_size = 0 ∧ p.sample_flags = 0 ∧ p.sample_composition_time_offset = 0) ∧
    (∀ t a b c f, let p : ColrParameters :=
        { colour_type := t, colour_primaries := a, transfer_characteristics := b, matrix_coefficients := c, full_range_flag := f };
      p.profile = [] ∧ p.unknown = []) ∧
    (∀ s d, let p : PsshParameters := { system_id := s, data := d }; p.version = 0 ∧ p.flags = 0 ∧ p.kids = []) ∧
    (let p : UrlParameters := {}; p.version = 0 ∧ p.flags = 0 ∧ p.location = []) ∧
    (let p : UrnParameters := {}; p.version = 0 ∧ p.flags = 0 ∧ p.name = [] ∧ p.location = []) := by
  refine ⟨?_, ?_, ?_, ?_, ?_, ?_, ?_, ?_, ?_, ?_, ?_, ?_, ?_, ?_, ?_, ?_, ?_, ?_, ?_, ?_, ?_, ?_, ?_, ?_, ?_, ?_, ?_, ?_, ?_, ?_,
    ?_⟩ <;> intros <;> and_intros <;> first | rfl | exact roll_code | decide +kernel

/-- The same for the other boxes and entries: version 0, no flags, no length of its own. -/
theorem C70_defaults_full_boxes :
    (∀ a b c, let p : AlternativeStartupEntryParameters :=
        { roll_count := a, first_output_sample := b, sample_offsets := c };
      p.description_length = 0 ∧ p.opts = []) ∧
    (∀ a b, let p : VisualRandomAccessEntryParameters :=
        { num_leading_samples_known := a, num_leading_samples := b };
      p.description_length = 0) ∧
    (∀ a, let p : TemporalLevelEntryParameters := { level_independently_decodable := a };
      p.description_length = 0) ∧
    (let p : DOpsChannelMappingTableParameters := {};
      p.stream_count = 0 ∧ p.coupled_count = 0 ∧ p.channel_mapping = []) ∧
    (∀ a, let p : MfhdParameters := { sequence_number := a };
      p.version = 0 ∧ p.flags = 0) ∧
    (∀ a, let p : MfroParameters := { size := a };
      p.version = 0 ∧ p.flags = 0) ∧
    (∀ a, let p : DrefParameters := { entry_count := a };
      p.version = 0 ∧ p.flags = 0) ∧
    (∀ a, let p : StsdParameters := { entry_count := a };
      p.version = 0 ∧ p.flags = 0) ∧
    (∀ a b c d e, let p : TrexParameters :=
        { track_id := a, default_sample_description_index := b, default_sample_duration := c, default_sample_size := d, default_sample_flags := e };
      p.version = 0 ∧ p.flags = 0) ∧
    (∀ a, let p : MehdParameters := { fragment_duration := a };
      p.version = 0 ∧ p.flags = 0) ∧
    (∀ a, let p : TfdtParameters := { base_media_decode_time := a };
      p.version = 0 ∧ p.flags = 0) ∧
    (∀ a, let p : ElstParameters := { entries := a };
      p.version = 0 ∧ p.flags = 0) ∧
    (∀ a b c d e, let p : SidxParameters :=
        { reference_id := a, timescale := b, earliest_presentation_time := c, first_offset := d, references := e };
      p.version = 0 ∧ p.flags = 0) ∧
    (∀ a, let p : SttsParameters := { entries := a };
      p.version = 0 ∧ p.flags = 0) ∧
    (∀ a, let p : CttsParameters := { entries := a };
      p.version = 0 ∧ p.flags = 0) ∧
    (∀ a, let p : StscParameters := { entries := a };
      p.version = 0 ∧ p.flags = 0) ∧
    (∀ a, let p : StcoParameters := { chunk_offsets := a };
      p.version = 0 ∧ p.flags = 0) ∧
    (∀ a, let p : Co64Parameters := { chunk_offsets := a };
      p.version = 0 ∧ p.flags = 0) ∧
    (∀ a, let p : StssParmeters := { sample_numbers := a };
      p.version = 0 ∧ p.flags = 0) ∧
    (∀ a b c d e, let p : TfraParameters :=
        { track_id := a, length_size_of_traf_num := b, length_size_of_trun_num := c, length_size_of_sample_num := d, entries := e };
      p.version = 0 ∧ p.flags = 0) ∧
    (∀ a b c d e f g, let p : EmsgParameters :=
        { scheme_uri := a, value := b, timescale := c, presentation_time := d, event_duration := e, id := f, message_data := g };
      p.version = 0 ∧ p.flags = 0) := by
  refine ⟨?_, ?_, ?_, ?_, ?_, ?_, ?_, ?_, ?_, ?_, ?_, ?_, ?_, ?_, ?_, ?_, ?_, ?_, ?_, ?_, ?_⟩ <;> intros <;> and_intros <;> rfl

namespace Example

/-- A run with a data offset (flag 0x1), and sizes and signed offsets of the samples (flags 0x200, 0x800). -/
def aTrun : Construction := .trun
  { flags := 0xa01, data_offset := 0x1234,
    entries := [{ sample_size := 7, sample_composition_time_offset := -2 }, 
      { sample_size := 0x100, sample_duration := 9 }] }

theorem aTrun_ok : aTrun.run = .ok ⟨fourcc "trun", .trun (Trun.new (match aTrun with | .trun p => p | _ => {})), none⟩ := rfl

/-- The content, byte by byte. -/
example : bitsOf (content aTrun) = bytesBits
    [0, 0, 0x0a, 0x01,  0, 0, 0, 2,  0, 0, 0x12, 0x34,  0, 0, 0, 7,  0xff, 0xff, 0xff, 0xfe,  0, 0, 1, 0,  0, 0, 0, 0] := by
  decide +kernel
example : ¬ Unwritable aTrun ∧ Letters aTrun := ⟨id, trivial⟩
example : ((C70_content aTrun _ aTrun_ok id trivial).1) = rfl := rfl

/-- A media header: "und" is stored as 0x55c4. -/
example : bitsOf (content (.mdhd { creation_time := 1, modification_time := 2, timescale := 3, duration := 4 })) = bytesBits
    [0, 0, 0, 0,  0, 0, 0, 1,  0, 0, 0, 2,  0, 0, 0, 3,  0, 0, 0, 4,  0x55, 0xc4,  0, 0] := by decide +kernel
example : Letters (.mdhd { creation_time := 1, modification_time := 2, timescale := 3, duration := 4 }) := by
  simp [Letters]

/-- Sound descriptions that are refused and accepted. -/
def sound (version : BitVec 16) (qt : Bool) (n : Nat) : Construction := .audio
  { type := fourcc "mp4a", data_reference_index := 1, entry_version := version, channel_count := 2, sample_size := 16,
    sample_rate := 0xbb800000, is_quick_time_compatible := qt, quick_time_data := List.replicate n 0 }

example : Refused (sound 1 false 0) := by simp [Refused, sound]
example : Refused (sound 1 true 36) := by simp [Refused, sound]
example : ¬ Refused (sound 1 true 16) ∧ ¬ Refused (sound 2 true 36) ∧ ¬ Refused (sound 0 false 0) ∧ ¬ Refused (sound 0 true 5) := by
  simp [Refused, sound]

/-- Parameters that cannot be written. -/
example : Unwritable (.avcC
  { configuration_version := 1, profile := 66, profile_compatibility := 0, level := 30,
    high_profile_fields_enabled := true }) := by simp [Unwritable, highProfile]
example : ¬ Unwritable (.avcC
  { configuration_version := 1, profile := 100, profile_compatibility := 0, level := 30,
    high_profile_fields_enabled := true }) := by simp [Unwritable, highProfile]

end Example
end Mp4
