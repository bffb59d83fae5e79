import Verif.Model.Construct
import Verif.Model.Writer

/-!
# The boxes of the writers and tracks are those of the constructor calls in their code

Model/Track and Model/Writer list the boxes of a track and of the user data with all their members.  Here are the `new box::X({…})`
calls as they stand in the code, with the parameters the code leaves out left out; running the constructors of
Model/Construct on them gives the same trees.  So the members in Model/Track and Model/Writer that come from default values are
those of the headers.
-/

namespace Mp4

/-- `new BoxInfo({.parent = …, .box = <call>})` with the calls whose parent it is, in order. -/
inductive Plan where
  | node (call : Construction) (children : List Plan)

mutual
/-- The constructor calls of a plan, top down; the first exception ends it. -/
def Plan.run : Plan → Except Err Mk
  | .node c ps =>
    match c.run with
    | .error e => .error e
    | .ok b =>
      match Plan.runList ps with
      | .error e => .error e
      | .ok ms => .ok (mkInfo b.type b.data ms)
def Plan.runList : List Plan → Except Err (List Mk)
  | [] => .ok []
  | p :: ps =>
    match p.run with
    | .error e => .error e
    | .ok m =>
      match Plan.runList ps with
      | .error e => .error e
      | .ok ms => .ok (m :: ms)
end

namespace CallSites

/-- Parameters of a `VisualSampleEntry` (src/track/h264.cpp:38-43, vpx.cpp:33-38, av1.cpp:38-43). -/
def visual (type : String) (width height : BitVec 32) : Construction := .visual
  { type := fourcc type, data_reference_index := 1, width := width.setWidth 16, height := height.setWidth 16 }

/-- Parameters of an `AudioSampleEntry` (src/track/opus.cpp:30-37, aac.cpp:31-38, mp3.cpp:29-36). -/
def audio (type : String) (sample_rate : BitVec 32) : Construction := .audio
  { type := fourcc type, data_reference_index := 1, entry_version := 0, channel_count := 2, sample_size := 16, sample_rate }

/-- A `DecoderConfigDescriptor` (src/track/aac.cpp:39-44, mp3.cpp:37-42). -/
def dcd (object_type : Byte) (buffer_size_db max_bitrate avg_bitrate : BitVec 32) (subs : List DescriptorParameters) :
    DescriptorParameters := .decConfig
  { object_type_indication := object_type, stream_type := 5, buffer_size_db, max_bitrate, avg_bitrate } subs

/-- `makeStsdBoxInfo` of the six tracks (src/track/h264.cpp:35-55, vpx.cpp:29-46, av1.cpp:34-53, opus.cpp:27-45,
aac.cpp:28-61, mp3.cpp:26-49). -/
def stsd (c : Codec) (track_id timescale : BitVec 32) : Plan :=
  .node (.stsd { entry_count := 1 }) [
    match c with
    | .h264 w h cfg =>
      .node (visual "avc1" w h) [.node (.avcC
        { configuration_version := cfg.configuration_version, profile := cfg.profile,
          profile_compatibility := cfg.profile_compatibility, level := cfg.level,
          sequence_parameter_sets := cfg.sequence_parameter_sets.map (fun s => ⟨s⟩),
          picture_parameter_sets := cfg.picture_parameter_sets.map (fun s => ⟨s⟩) }) []]
    | .vpx vp8 w h max_bitrate avg_bitrate =>
      .node (visual (if vp8 then "vp08" else "vp09") w h) [
        .node (.vpcC { version := 1, level := 21 }) [],
        .node (.fiel { field_count := 1, field_ordering := 0 }) [],
        .node (.pasp { h_spacing := 1 }) [],
        .node (.btrt { decoding_buffer_size := 0, max_bitrate, avg_bitrate }) []]
    | .av1 w h cfg =>
      .node (visual "av01" w h) [.node (.av1C
        { seq_profile := cfg.seq_profile, seq_level_idx_0 := cfg.seq_level_idx_0, seq_tier_0 := cfg.seq_tier_0,
          chroma_subsampling_x := cfg.chroma_subsampling_x, chroma_subsampling_y := cfg.chroma_subsampling_y,
          chroma_sample_position := cfg.chroma_sample_position, config_OBUs := cfg.config_OBUs }) []]
    | .opus pre_skip _ =>
      .node (audio "Opus" (48000#32 <<< 16)) [.node (.dOps
        { output_channel_count := 2, pre_skip := pre_skip.setWidth 16, input_sample_rate := 48000, output_gain := 0,
          channel_mapping_family := 0 }) []]
    | .aac buffer_size_db max_bitrate avg_bitrate =>
      let dsi := DescriptorParameters.decSpecific { data := [0x11, 0x90] }
      let scd := DescriptorParameters.slConfig { data := [0x02] }
      let dcd := dcd 0x40 buffer_size_db max_bitrate avg_bitrate [dsi]
      let esd := DescriptorParameters.es { ESID := (0xffff#32 &&& track_id).setWidth 16 } [dcd, scd]
      .node (audio "mp4a" (timescale <<< 16)) [
        .node (.esds { descriptors := [esd, dcd, dsi, scd] }) [],
        .node (.btrt { decoding_buffer_size := 0, max_bitrate, avg_bitrate }) []]
    | .mp3 buffer_size_db max_bitrate avg_bitrate =>
      let scd := DescriptorParameters.slConfig { data := [0x02] }
      let dcd := dcd 0x6b buffer_size_db max_bitrate avg_bitrate []
      let esd := DescriptorParameters.es { ESID := 0 } [dcd, scd]
      .node (audio "mp4a" (timescale <<< 16)) [.node (.esds { descriptors := [esd, dcd, scd] }) []]]

/-- `makeTkhdBoxInfo` (src/track/soun.cpp:12-19, vide.cpp:12-24). -/
def tkhd (t : Track) : Construction :=
  match t.codec with
  | .h264 w h _ | .vpx _ w h _ _ | .av1 w h _ => .tkhd
    { flags := 0x000003, creation_time := t.time_from_epoch, modification_time := t.time_from_epoch, track_id := t.track_id,
      duration := t.durationInMvhdTimescale, volume := 0, width := w <<< 16, height := h <<< 16 }
  | .opus .. | .aac .. | .mp3 .. => .tkhd
    { flags := 0x000003, creation_time := t.time_from_epoch, modification_time := t.time_from_epoch, track_id := t.track_id,
      duration := t.durationInMvhdTimescale }

/-- `makeVmhdBoxInfo`, `makeSmhdBoxInfo` (src/track/vide.cpp:26-28, soun.cpp:21-23). -/
def mediaHeader (t : Track) : Construction :=
  match t.codec.handler with
  | .vide => .vmhd { flags := 0x000001 }
  | .soun => .smhd { balance := 0 }

/-- `make_offset_box` (src/track/track.cpp:128-148). -/
def offsets (chunks : List ChunkInfo) : Construction :=
  if (match chunks.getLast? with | some last => decide (last.offset.toNat > 0xffffffff) | none => false)
  then .co64 { chunk_offsets := chunks.map (·.offset) }
  else .stco { chunk_offsets := chunks.map (·.offset.setWidth 32) }

/-- `makeSgpdBoxInfo`, `makeSbgpBoxInfo` (src/track/opus.cpp:74-87, aac.cpp:90-101). -/
def rollGroups (t : Track) (roll_distance : BitVec 16) : List Plan :=
  [.node (.sgpd { roll_distances := [{ roll_distance }] }) [],
   .node (.sbgp { entries := [{ sample_count := BitVec.ofNat 32 t.mdat_sample_sizes.length, group_description_index := 1 }] }) []]

/-- The calls under `stbl` (src/track/h264.cpp:72-79, vpx.cpp:63-70, av1.cpp:70-77, opus.cpp:64-71, aac.cpp:79-86,
mp3.cpp:67-71). -/
def stblChildren (t : Track) : List Plan :=
  let stsd := stsd t.codec t.track_id t.timescale
  let stts_entries := List.map (fun e => ⟨e.sample_count, e.sample_duration⟩) (make_stts_entries t.sample_durations)
  let stts := .node (.stts { entries := stts_entries }) []
  let stss := .node (.stss { sample_numbers := t.key_sample_numbers }) []
  let stsc_entries := List.map (fun e => ⟨e.first_chunk, e.samples_per_chunk, e.sample_description_index⟩)
    (make_stsc_entries t.chunk_infos)
  let stsc := .node (.stsc { entries := stsc_entries }) []
  let stsz := .node (.stsz { entry_sizes := t.mdat_sample_sizes }) []
  let offsets := .node (offsets t.chunk_infos) []
  match t.codec with
  | .h264 .. | .vpx .. | .av1 .. => [stsd, stts, stss, stsc, stsz, offsets]
  | .opus _ roll_distance => [stsd, stts, stsc, stsz, offsets] ++ rollGroups t roll_distance
  | .aac .. => [stsd, stts, stsc, stsz, offsets] ++ rollGroups t (-1)
  | .mp3 .. => [stsd, stts, stsc, stsz, offsets]

/-- `appendTrakBoxInfo` after its call of `finalize` (src/track/h264.cpp:57-80, vpx.cpp:48-71, av1.cpp:55-78,
opus.cpp:47-72, aac.cpp:63-87, mp3.cpp:51-72; src/track/track.cpp:64-68, 166-210). -/
def trak (t : Track) : Plan :=
  .node .trak [
    .node (tkhd t) [],
    .node .edts [.node (.elst { entries := [{ track_duration := t.durationInMvhdTimescale, media_time := t.media_time }] }) []],
    .node .mdia [
      .node (.mdhd { creation_time := t.time_from_epoch, modification_time := t.time_from_epoch, timescale := t.timescale,
                     duration := t.durationInTimescale }) [],
      .node (.hdlr
        { handler_type := match t.codec.handler with | .vide => fourcc "vide" | .soun => fourcc "soun"
          name := shiguredoMp4 }) [],
      .node .minf [
        .node (mediaHeader t) [],
        .node .dinf [.node (.dref { entry_count := 1 }) [.node (.url { flags := 0x000001 }) []]],
        .node .stbl (stblChildren t)]]]

/-- The `moov` of a new writer (src/writer/simple_writer.cpp:33-39, faststart_writer.cpp:55-62). -/
def moov (time_from_epoch : BitVec 64) (timescale : BitVec 32) (duration : BitVec 64) (next_track_id : BitVec 32) : Plan :=
  .node .moov [.node (.mvhd
    { creation_time := time_from_epoch, modification_time := time_from_epoch, timescale, duration, next_track_id }) []]

/-- `Writer::appendUdtaBoxInfo` (src/writer/writer.cpp:42-51, include/shiguredo/mp4/writer/writer.hpp:46-47). -/
def udta : Plan :=
  .node .udta [
    .node .metaBox [
      .node (.hdlr { handler_type := fourcc "mdir", name := [] }) [],
      .node .ilst [.node (.ilstMeta { type := ⟨0xa9, 0x74, 0x6f, 0x6f⟩ }) [.node (.data { data := shiguredoMp4 }) []]]]]

end CallSites

theorem Plan.run_node {c : Construction} {b : Box} {ps : List Plan} {ms : List Mk} (h : c.run = .ok b)
    (hs : Plan.runList ps = .ok ms) : (Plan.node c ps).run = .ok (mkInfo b.type b.data ms) := by
  rw [Plan.run, h]
  dsimp only
  rw [hs]

theorem Plan.run_cons {p : Plan} {m : Mk} {ps : List Plan} {ms : List Mk} (h : p.run = .ok m)
    (hs : Plan.runList ps = .ok ms) : Plan.runList (p :: ps) = .ok (m :: ms) := by
  rw [Plan.runList, h]
  dsimp only
  rw [hs]

theorem Plan.run_nil : Plan.runList [] = .ok [] := by rw [Plan.runList]

theorem Plan.run_append {ps qs : List Plan} {ms ns : List Mk} (h : Plan.runList ps = .ok ms)
    (hs : Plan.runList qs = .ok ns) : Plan.runList (ps ++ qs) = .ok (ms ++ ns) := by
  induction ps generalizing ms with
  | nil => rw [Plan.run_nil] at h; cases h; exact hs
  | cons p ps ih =>
    rw [Plan.runList] at h
    split at h
    · cases h
    · rename_i m hm
      split at h
      · cases h
      · rename_i ms' hms
        cases h
        exact Plan.run_cons hm (ih hms)

private theorem map_same {α β : Type} (f : α → β) (g : β → α) (h : ∀ a, g (f a) = a) (l : List α) :
    (l.map f).map g = l := by
  rw [List.map_map]
  refine (List.map_congr_left fun a _ => h a).trans ?_
  exact List.map_id l

theorem callSites_stsd (c : Codec) (id ts : BitVec 32) : (CallSites.stsd c id ts).run = .ok (c.stsd id ts) := by
  cases c with
  | h264 w h cfg =>
    refine Plan.run_node (b := ⟨_, _, none⟩) rfl (Plan.run_cons (Plan.run_node (b := ⟨_, _, none⟩) rfl (Plan.run_cons
      (Plan.run_node (b := ⟨fourcc "avcC", .avcC (Codec.avcC cfg), none⟩) ?_ Plan.run_nil) Plan.run_nil)) Plan.run_nil)
    simp only [Construction.run, AvcC.new, Codec.avcC]
    congr 4
    · exact map_same _ _ (fun _ => rfl) _
    · exact map_same _ _ (fun _ => rfl) _
  | vpx vp8 w h a b => cases vp8 <;> rfl
  | av1 w h cfg => rfl
  | opus p r => rfl
  | aac a b c => rfl
  | mp3 a b c => rfl

private theorem matrix_eq : #v[1#32 <<< 16, 0#32, 0#32, 0#32, 1#32 <<< 16, 0#32, 0#32, 0#32, 1#32 <<< 30] = unityMatrix := by
  decide

private theorem flags3_eq : FullBox.new 0 0x000003#32 = ⟨0, 0, 0, 3⟩ := by decide

private theorem rate_eq : 1#32 <<< 16 = 0x10000#32 := by decide

theorem callSites_tkhd (t : Track) : (CallSites.tkhd t).run = .ok ⟨fourcc "tkhd", .tkhd t.tkhd, none⟩ := by
  cases t; rename_i codec
  cases codec <;> simp only [CallSites.tkhd, Construction.run, Tkhd.new, Track.tkhd, matrix_eq, flags3_eq] <;> rfl

theorem callSites_offsets (t : Track) : Plan.run (.node (CallSites.offsets t.chunk_infos) []) = .ok t.offsets := by
  have hco : Plan.run (.node (.co64 { chunk_offsets := t.chunk_infos.map (·.offset) }) []) =
      .ok (mkInfo (fourcc "co64") (.co64 ⟨version0, t.chunk_infos.map (·.offset)⟩) []) :=
    Plan.run_node (b := ⟨fourcc "co64", .co64 ⟨version0, _⟩, none⟩) (by simp only [Construction.run, Co64.new, Stco.new]; rfl) Plan.run_nil
  have hst : Plan.run (.node (.stco { chunk_offsets := t.chunk_infos.map (·.offset.setWidth 32) }) []) =
      .ok (mkInfo (fourcc "stco") (.stco ⟨version0, t.chunk_infos.map (·.offset.setWidth 32)⟩) []) :=
    Plan.run_node (b := ⟨fourcc "stco", .stco ⟨version0, _⟩, none⟩) (by simp only [Construction.run, Co64.new, Stco.new]; rfl) Plan.run_nil
  rw [Track.offsets, make_offset_box, CallSites.offsets]
  cases hl : t.chunk_infos.getLast? with
  | none => simp only [Bool.false_eq_true, if_false]; exact hst
  | some last =>
    have hd : (last.offset > 0xffffffff#64) ↔ last.offset.toNat > 0xffffffff := Iff.rfl
    by_cases h : last.offset.toNat > 0xffffffff
    · simp only [hd, h, decide_true, if_true]; exact hco
    · simp only [hd, h, decide_false, Bool.false_eq_true, if_false]; exact hst

/-- The track boxes. -/
theorem callSites_trak (t : Track) : (CallSites.trak t).run = .ok t.trak := by
  refine Plan.run_node (b := ⟨_, _, none⟩) rfl ?_
  refine Plan.run_cons (Plan.run_node (callSites_tkhd t) Plan.run_nil) ?_
  refine Plan.run_cons (Plan.run_node (b := ⟨fourcc "edts", .empty, none⟩) rfl (Plan.run_cons (Plan.run_node
    (b := ⟨fourcc "elst", .elst t.elst, none⟩) ?_ Plan.run_nil) Plan.run_nil)) ?_
  · simp only [Construction.run, Elst.new, Track.elst, List.map_cons, List.map_nil, ElstEntry.new, rate_eq]
    rfl
  refine Plan.run_cons (Plan.run_node (b := ⟨_, _, none⟩) rfl ?_) Plan.run_nil
  refine Plan.run_cons (Plan.run_node (b := ⟨fourcc "mdhd", .mdhd t.mdhd, none⟩) ?_ Plan.run_nil)
    (Plan.run_cons ?_ (Plan.run_cons ?_ Plan.run_nil))
  · simp only [Construction.run, Mdhd.new, Track.mdhd]
    rfl
  · refine Plan.run_node (b := ⟨fourcc "hdlr", .hdlr t.hdlr, none⟩) ?_ Plan.run_nil
    simp only [Construction.run, Hdlr.new, Track.hdlr]
    rfl
  · refine Plan.run_node (b := ⟨_, _, none⟩) rfl ?_
    refine Plan.run_cons ?_ (Plan.run_cons rfl (Plan.run_cons (Plan.run_node (b := ⟨_, _, none⟩) rfl ?_) Plan.run_nil))
    · cases t; rename_i codec; cases codec <;> rfl
    · have h1 := callSites_stsd t.codec t.track_id t.timescale
      have h2 : Plan.run (.node (.stts ⟨0#8, 0x000000#32, List.map
          (fun e => ⟨e.sample_count, e.sample_duration⟩) (make_stts_entries t.sample_durations)⟩) []) = .ok t.stts :=
        Plan.run_node (b := ⟨_, .stts ⟨version0, make_stts_entries t.sample_durations⟩, none⟩)
          (by simp only [Construction.run, Stts.new]; congr 4; exact map_same _ _ (fun _ => rfl) _) Plan.run_nil
      have h3 : Plan.run (.node (.stss { sample_numbers := t.key_sample_numbers }) []) = .ok t.stss :=
        Plan.run_node (b := ⟨_, .stss ⟨version0, t.key_sample_numbers⟩, none⟩) (by simp only [Construction.run, Stss.new]; rfl)
          Plan.run_nil
      have h4 : Plan.run (.node (.stsc ⟨0#8, 0x000000#32, List.map
          (fun e => ⟨e.first_chunk, e.samples_per_chunk, e.sample_description_index⟩) (make_stsc_entries t.chunk_infos)⟩) []) = .ok t.stsc :=
        Plan.run_node (b := ⟨_, .stsc ⟨version0, make_stsc_entries t.chunk_infos⟩, none⟩)
          (by simp only [Construction.run, Stsc.new]; congr 4; exact map_same _ _ (fun _ => rfl) _) Plan.run_nil
      have h5 : Plan.run (.node (.stsz { entry_sizes := t.mdat_sample_sizes }) []) = .ok t.stsz :=
        Plan.run_node (b := ⟨_, .stsz ⟨version0, 0, t.mdat_sample_sizes⟩, none⟩) (by simp only [Construction.run, Stsz.new]; rfl)
          Plan.run_nil
      have h6 := callSites_offsets t
      have h7 (r) : Plan.runList (CallSites.rollGroups t r) = .ok (t.rollGroups r) :=
        Plan.run_cons (Plan.run_node (b := ⟨_, _, none⟩) (by simp only [Construction.run, Sgpd.new]; rfl) Plan.run_nil)
          (Plan.run_cons (Plan.run_node (b := ⟨_, _, none⟩) (by simp only [Construction.run, Sbgp.new]; rfl) Plan.run_nil)
            Plan.run_nil)
      rw [CallSites.stblChildren, Track.stblChildren]
      generalize t.codec = codec at *
      cases codec <;> first
        | exact Plan.run_cons h1 (Plan.run_cons h2 (Plan.run_cons h3 (Plan.run_cons h4 (Plan.run_cons h5 (Plan.run_cons h6 Plan.run_nil)))))
        | exact Plan.run_cons h1 (Plan.run_cons h2 (Plan.run_cons h4 (Plan.run_cons h5 (Plan.run_cons h6 Plan.run_nil))))
        | exact Plan.run_append (Plan.run_cons h1 (Plan.run_cons h2 (Plan.run_cons h4 (Plan.run_cons h5 (Plan.run_cons h6 Plan.run_nil))))) (h7 _)

/-- The user data. -/
theorem callSites_udta : CallSites.udta.run = .ok udta := by
  rfl

/-- The `moov` box of a new writer. -/
theorem callSites_moov (time : BitVec 64) (ts : BitVec 32) (d : BitVec 64) (id : BitVec 32) :
    ∃ m, (CallSites.moov time ts d id).run = .ok m ∧ m [] = newMoov (newMvhd time ts d id) := by
  refine ⟨_, Plan.run_node (b := ⟨fourcc "moov", .empty, none⟩) rfl (Plan.run_cons (Plan.run_node
    (b := ⟨fourcc "mvhd", .mvhd (newMvhd time ts d id), none⟩) ?_ Plan.run_nil) Plan.run_nil), rfl⟩
  simp only [Construction.run, Mvhd.new, newMvhd, matrix_eq]
  rfl

end Mp4
