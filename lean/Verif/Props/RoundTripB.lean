import Verif.Lemmas.Box
import Verif.Lemmas.Inversion

/-!
# C21–C24, C26, C27: reading back sample entries, codec configurations, strings, descriptors and opaque boxes

`RoundTripEnd` (Spec/RoundTrip.lean) is the round trip of a box that extends to the end of its stream.  Where a box has
optional parts, `old` is the object the read is performed on: fields that are not in the file keep its values.
-/

namespace Mp4

/-! ### C21 sample entries -/

/-- **C21** visual sample entries, whatever follows (child boxes) -/
theorem C21_visual (b : VisualSampleEntry) : RoundTrip b.writeData (VisualSampleEntry.readData b.type) b :=
  roundTrip_of (VisualSampleEntry.write_eq b) (VisualSampleEntry.size_eq b) (VisualSampleEntry.read_eq b)

/-- **C21** audio sample entries without QuickTime extension: version 0, or `Opus` with any version; child boxes may
follow. -/
theorem C21_audio_plain (b old : AudioSampleEntry) (hw : old.under_wave = false)
    (hq : b.is_quick_time_compatible = false) (hv : b.type = fourcc "Opus" ∨ b.entry_version = 0)
    (ht : b.type = old.type) (hd : b.quick_time_data = old.quick_time_data) (hbw : b.under_wave = false) :
    RoundTrip b.writeData (AudioSampleEntry.readData old) b := by
  have e : AudioSampleEntry.plain b old = b := by
    obtain ⟨a1, a2, a3, a4, a5, a6, a7, a8, a9, a10, a11, a12, a13⟩ := b
    simp only at hq ht hd hbw
    subst hq ht hd hbw
    simp [AudioSampleEntry.plain, hw]
  have := roundTrip_of (AudioSampleEntry.write_eq b) (AudioSampleEntry.size_eq b)
    (AudioSampleEntry.read_plain b old hw hq (ht ▸ hv))
  rwa [e] at this

/-- **C21** audio sample entries with the QuickTime extension of version 1 (16 bytes) or 2 (36 bytes); child boxes may
follow. -/
theorem C21_audio_quicktime (b old : AudioSampleEntry) (hw : old.under_wave = false)
    (hq : b.is_quick_time_compatible = true) (hv : b.type ≠ fourcc "Opus") (ht : b.type = old.type)
    (hl : b.entry_version = 1 ∧ b.quick_time_data.length = 16 ∨ b.entry_version = 2 ∧ b.quick_time_data.length = 36)
    (hbw : b.under_wave = false) : RoundTrip b.writeData (AudioSampleEntry.readData old) b := by
  have := roundTrip_of (AudioSampleEntry.write_eq b) (AudioSampleEntry.size_eq b)
    (AudioSampleEntry.read_qt b old hw hq (ht ▸ hv) hl)
  have e : { b with type := old.type, under_wave := false } = b := by
    obtain ⟨a1, a2, a3, a4, a5, a6, a7, a8, a9, a10, a11, a12, a13⟩ := b
    simp only at ht hbw
    subst ht hbw
    rfl
  rwa [e] at this

/-- **C21** below a `wave` box the whole payload becomes the opaque extension data. -/
theorem C21_audio_under_wave (old : AudioSampleEntry) (hw : old.under_wave = true) (payload d : List Byte) :
    (AudioSampleEntry.readData old).run d (bytesBits payload)
      = .ok ((8 * payload.length, { old with quick_time_data := payload }), []) := by
  have := AudioSampleEntry.read_wave old hw payload d
  rwa [show payload.flatMap bits = bytesBits payload from rfl] at this

/-- An `mp4a` entry as QuickTime writes it. -/
def exampleAudio : AudioSampleEntry :=
  ⟨fourcc "mp4a", #v[0, 0, 0, 0, 0, 0], 1, 1, #v[0, 0, 0], 2, 16, 0, 0, 0xbb800000, true, List.replicate 16 0xaa, false⟩

example : ∃ old : AudioSampleEntry, RoundTrip exampleAudio.writeData (AudioSampleEntry.readData old) exampleAudio :=
  ⟨{ exampleAudio with quick_time_data := [], data_reference_index := 0 },
   C21_audio_quicktime exampleAudio _ rfl rfl (by decide +kernel) rfl (Or.inl (by decide)) rfl⟩

/-! ### C22 codec configurations -/

/-- **C22** avcC without high-profile fields, alone in its box. -/
theorem C22_avcC_base (b old : AvcC) (hh : b.high_profile_fields_enabled = false)
    (h1 : b.reserved.toNat < 2 ^ 6 ∧ b.length_size_minus_one.toNat < 2 ^ 2 ∧ b.reserved2.toNat < 2 ^ 3)
    (h2 : b.sequence_parameter_sets.length < 32 ∧ ∀ n ∈ b.sequence_parameter_sets, n.length < 2 ^ 16)
    (h3 : b.picture_parameter_sets.length < 256 ∧ ∀ n ∈ b.picture_parameter_sets, n.length < 2 ^ 16) :
    RoundTripEnd b.writeData (AvcC.readData old)
      { b with reserved3 := old.reserved3, chroma_format := old.chroma_format, reserved4 := old.reserved4,
               bit_depth_luma_minus8 := old.bit_depth_luma_minus8, reserved5 := old.reserved5,
               bit_depth_chroma_minus8 := old.bit_depth_chroma_minus8,
               sequence_parameter_sets_ext := old.sequence_parameter_sets_ext } :=
  roundTripEnd_of (AvcC.write_eq b (by simp [AvcC.Consistent, hh])) (AvcC.size_eq b)
    (AvcC.read_base_end b old ⟨h1.1, h1.2.1, h1.2.2, h2.1, h3.1, h2.2, h3.2⟩ hh)

/-- **C22** avcC with high-profile fields; anything may follow. -/
theorem C22_avcC_high (b old : AvcC) (hh : b.high_profile_fields_enabled = true)
    (hp : b.profile.toNat ∈ [86, 100, 110, 118, 122, 128, 138, 144, 244])
    (h1 : b.reserved.toNat < 2 ^ 6 ∧ b.length_size_minus_one.toNat < 2 ^ 2 ∧ b.reserved2.toNat < 2 ^ 3)
    (h2 : b.sequence_parameter_sets.length < 32 ∧ ∀ n ∈ b.sequence_parameter_sets, n.length < 2 ^ 16)
    (h3 : b.picture_parameter_sets.length < 256 ∧ ∀ n ∈ b.picture_parameter_sets, n.length < 2 ^ 16)
    (h4 : b.sequence_parameter_sets_ext.length < 256 ∧ ∀ n ∈ b.sequence_parameter_sets_ext, n.length < 2 ^ 16)
    (h5 : b.reserved3.toNat < 2 ^ 6 ∧ b.chroma_format.toNat < 2 ^ 2 ∧ b.reserved4.toNat < 2 ^ 5 ∧
      b.bit_depth_luma_minus8.toNat < 2 ^ 3 ∧ b.reserved5.toNat < 2 ^ 5 ∧ b.bit_depth_chroma_minus8.toNat < 2 ^ 3) :
    RoundTrip b.writeData (AvcC.readData old) b := by
  have hp' : is_avc_high_profile b.profile = true := by
    have : ∀ p : BitVec 8, p.toNat ∈ [86, 100, 110, 118, 122, 128, 138, 144, 244] → is_avc_high_profile p = true := by
      decide +kernel
    exact this _ hp
  exact roundTrip_of (AvcC.write_eq b (by simp [AvcC.Consistent, hp'])) (AvcC.size_eq b)
    (AvcC.read_high b old ⟨h1.1, h1.2.1, h1.2.2, h2.1, h3.1, h2.2, h3.2⟩
      ⟨h5.1, h5.2.1, h5.2.2.1, h5.2.2.2.1, h5.2.2.2.2.1, h5.2.2.2.2.2, h4.1, h4.2⟩ hh hp')

/-- **C22** The SPS count has five bits: whatever the input, the reader never returns 32 or more sequence parameter
sets … -/
theorem C22_avcC_sps_limit (old : AvcC) (d : List Byte) (s s' : List Bool) (n : Nat) (b : AvcC)
    (h : (AvcC.readData old).run d s = .ok ((n, b), s')) : b.sequence_parameter_sets.length < 32 := by
  have key : R.Ensures (AvcC.readData old) fun x => x.2.sequence_parameter_sets.length < 32 := by
    simp only [AvcC.readData, rd]
    iterate 7 refine R.Ensures.bind (R.Ensures.any _) (fun _ _ => ?_)
    refine R.Ensures.bind (R.ensures_read_uint 8 5 (by decide)) (fun c hc => ?_)
    refine R.Ensures.bind (R.ensures_readN _ _) (fun x hx => ?_)
    have hlt : x.2.length < 32 := by rw [hx]; exact hc.1
    iterate 2 refine R.Ensures.bind (R.Ensures.any _) (fun _ _ => ?_)
    split
    · exact R.Ensures.ret hlt
    · refine R.Ensures.bind (R.Ensures.any _) (fun _ _ => ?_)
      split
      · exact R.Ensures.ret hlt
      · iterate 8 refine R.Ensures.bind (R.Ensures.any _) (fun _ _ => ?_)
        exact R.Ensures.ret hlt
  exact key d s (n, b) s' h

/-- **C22** … so an avcC box with 32 or more of them (`H264VideoTrack` adds one per received SPS NAL unit) is written
without error, but never reads back. -/
theorem C22_avcC_corrupted (b old : AvcC) (hh : b.high_profile_fields_enabled = false)
    (h : 32 ≤ b.sequence_parameter_sets.length) :
    b.writeData.res = .ok (8 * b.getDataSize) ∧ ¬ RoundTripEnd b.writeData (AvcC.readData old) b := by
  refine ⟨?_, fun hr => ?_⟩
  · rw [AvcC.write_eq b (by simp [AvcC.Consistent, hh])]
  · have := C22_avcC_sps_limit old [] _ _ _ _ (hr.2 [])
    omega

/-- **C22** av1C (extends to the end of its box) -/
theorem C22_av1C (b : Av1C) (h : b.Fits) : RoundTripEnd b.writeData Av1C.readData b :=
  roundTripEnd_of (Av1C.write_eq b) (Av1C.size_eq b) (Av1C.read_eq b h)

/-- **C22** vpcC -/
theorem C22_vpcC (b : VpcC) (h : b.bit_depth.toNat < 2 ^ 4 ∧ b.chroma_sub_sampling.toNat < 2 ^ 3 ∧
      b.video_full_range_flag.toNat < 2 ^ 1) (hn : b.codec_initialization_data.length < 2 ^ 16)
    (hv : b.version = 0#8 → b.codec_initialization_data = []) : RoundTrip b.writeData VpcC.readData b :=
  roundTrip_of (VpcC.write_eq b) (VpcC.size_eq b) (VpcC.read_eq b ⟨h.1, h.2.1, h.2.2, hn, hv⟩)

/-- **C22** dOps, with and without channel mapping table -/
theorem C22_dOps (b : DOps)
    (h1 : b.channel_mapping_family ≠ 0#8 → b.channel_mapping.length = b.output_channel_count.toNat)
    (h2 : b.channel_mapping_family = 0#8 → b.stream_count = 0 ∧ b.coupled_count = 0 ∧ b.channel_mapping = []) :
    RoundTrip b.writeData DOps.readData b :=
  roundTrip_of (DOps.write_eq b) (DOps.size_eq b) (DOps.read_eq b ⟨h1, h2⟩)

example (old : AvcC) : ∃ b : AvcC, b.sequence_parameter_sets.length = 1 ∧
    RoundTrip b.writeData (AvcC.readData old) b :=
  ⟨_, rfl, C22_avcC_high
    ⟨1, 100, 0, 31, 0x3f, 3, 7, [[0x67, 0x64, 0, 0x1f]], [[0x68, 0xee], []], true, 0x3f, 1, 0x1f, 0, 0x1f, 0, []⟩ old (by decide) (by decide) (by decide) (by decide) (by decide) (by decide) (by decide)⟩

example : ∃ b : AvcC, b.high_profile_fields_enabled = false ∧ 32 ≤ b.sequence_parameter_sets.length :=
  ⟨⟨1, 66, 0, 31, 0x3f, 3, 7, List.replicate 33 [0x67], [], false, 0, 0, 0, 0, 0, 0, []⟩, by decide⟩

/-! ### C23 strings and metadata -/

/-- **C23** hdlr without padding and with `pre_defined` 0 -/
theorem C23_hdlr (b : Hdlr) (hp : b.padding = []) (h0 : b.pre_defined = 0) (hn : ∀ c ∈ b.name, c ≠ 0) :
    RoundTripEnd b.writeData Hdlr.readData b :=
  roundTripEnd_of (Hdlr.write_eq b) (Hdlr.size_eq b) (Hdlr.read_eq b hp h0 hn)

/-- **C23** hdlr with `pre_defined` other than 0, where a Pascal string is looked for first: reads back when the name's
first byte is not its length (`d` is the content of the stream, whose last bytes are those of the box). -/
theorem C23_hdlr_predefined (b : Hdlr) (hp : b.padding = []) (h0 : b.pre_defined ≠ 0) (hn : ∀ c ∈ b.name, c ≠ 0)
    (hne : ∀ c, b.name[0]? = some c → c.toNat ≠ b.name.length) (pre d : List Byte)
    (hd : bytesBits d = bytesBits pre ++ b.writeData.out) :
    Hdlr.readData.run d b.writeData.out = .ok ((b.writeData.out.length, b), []) := by
  have hs := Hdlr.size_eq b
  rw [Hdlr.write_eq b] at hd ⊢
  simp only at hd ⊢
  rw [hs]
  exact Hdlr.read_predefined b hp h0 hn hne pre d hd

/-- **C23** A hdlr box with padding is written, but reading it always fails. -/
theorem C23_hdlr_padding_unreadable (b : Hdlr) (hp : b.padding ≠ []) (h0 : b.pre_defined = 0)
    (hn : ∀ c ∈ b.name, c ≠ 0) (d : List Byte) :
    b.writeData.res = .ok b.writeData.out.length ∧ Hdlr.readData.run d b.writeData.out = .error .eof := by
  have hs := Hdlr.size_eq b
  rw [Hdlr.write_eq b]
  exact ⟨by rw [← hs], Hdlr.read_padding_fails b hp h0 hn d⟩

/-- **C23** url: the location is in the file only when the self-contained flag (bit 0) is not set. -/
theorem C23_url (b old : Url) (hn : ∀ c ∈ b.location, c ≠ 0)
    (h : b.checkFlag 1#32 = true → b.location = old.location) : RoundTrip b.writeData (Url.readData old) b := by
  have := roundTrip_of (Url.write_eq b) (Url.size_eq b) (Url.read_eq b old hn)
  have e : b.stored old = b := by
    unfold Url.stored
    split
    · next hs => rw [← h hs]
    · rfl
  rwa [e] at this

/-- **C23** urn -/
theorem C23_urn (b old : Urn) (hn : ∀ c ∈ b.name, c ≠ 0) (hl : ∀ c ∈ b.location, c ≠ 0)
    (h : b.checkFlag 1#32 = true → b.name = old.name ∧ b.location = old.location) :
    RoundTrip b.writeData (Urn.readData old) b := by
  have := roundTrip_of (Urn.write_eq b) (Urn.size_eq b) (Urn.read_eq b old hn hl)
  have e : b.stored old = b := by
    unfold Urn.stored
    split
    · next hs => rw [← (h hs).1, ← (h hs).2]
    · rfl
  rwa [e] at this

/-- **C23** emsg -/
theorem C23_emsg (b : Emsg) (hu : ∀ c ∈ b.scheme_uri, c ≠ 0) (hv : ∀ c ∈ b.value, c ≠ 0)
    (ht : b.version = 0 → b.presentation_time.toNat < 2 ^ 32) : RoundTripEnd b.writeData Emsg.readData b :=
  roundTripEnd_of (Emsg.write_eq b) (Emsg.size_eq b) (Emsg.read_eq b hu hv ht)

/-- **C23** data -/
theorem C23_data (b : Data) : RoundTripEnd b.writeData Data.readData b :=
  roundTripEnd_of (Data.write_eq b) (Data.size_eq b) (Data.read_eq b)

/-- **C23** colr of type `nclx`: the colour fields are in the file, a profile or unknown data is not. -/
theorem C23_colr_nclx (b old : Colr) (ht : b.colour_type = ⟨0x6e, 0x63, 0x6c, 0x78⟩) (hr : b.reserved.toNat < 2 ^ 7)
    (hp : b.profile = old.profile) (hu : b.unknown = old.unknown) :
    RoundTripEnd b.writeData (Colr.readData old) b := by
  have := roundTripEnd_of (Colr.write_eq b) (Colr.size_eq b) (Colr.read_eq b old hr)
  have e : b.stored old = b := by
    unfold Colr.stored
    rw [if_pos (by rw [ht]; decide), ← hp, ← hu]
  rwa [e] at this

/-- **C23** colr of type `rICC` or `prof`: the profile -/
theorem C23_colr_profile (b old : Colr)
    (ht : b.colour_type = ⟨0x72, 0x49, 0x43, 0x43⟩ ∨ b.colour_type = ⟨0x70, 0x72, 0x6f, 0x66⟩)
    (hr : b.reserved.toNat < 2 ^ 7) :
    RoundTripEnd b.writeData (Colr.readData old) { old with colour_type := b.colour_type, profile := b.profile } := by
  have := roundTripEnd_of (Colr.write_eq b) (Colr.size_eq b) (Colr.read_eq b old hr)
  have e : b.stored old = { old with colour_type := b.colour_type, profile := b.profile } := by
    unfold Colr.stored
    rcases ht with h | h <;> rw [h, if_neg (by decide), if_pos (by decide)]
  rwa [e] at this

/-- **C23** colr of any other type: the unknown data -/
theorem C23_colr_unknown (b old : Colr)
    (ht : b.colour_type ∉ [⟨0x6e, 0x63, 0x6c, 0x78⟩, ⟨0x72, 0x49, 0x43, 0x43⟩, ⟨0x70, 0x72, 0x6f, 0x66⟩])
    (hr : b.reserved.toNat < 2 ^ 7) :
    RoundTripEnd b.writeData (Colr.readData old) { old with colour_type := b.colour_type, unknown := b.unknown } := by
  have := roundTripEnd_of (Colr.write_eq b) (Colr.size_eq b) (Colr.read_eq b old hr)
  have e : b.stored old = { old with colour_type := b.colour_type, unknown := b.unknown } := by
    simp only [List.mem_cons, List.not_mem_nil, or_false, not_or] at ht
    unfold Colr.stored
    rw [if_neg, if_neg]
    · simp only [Colr.isProfile, Bool.or_eq_true, beq_iff_eq, not_or]; exact ht.2
    · simp only [Colr.isNclx, beq_iff_eq]; exact ht.1
  rwa [e] at this

/-- **C23** pssh; version 0 has no key ids. -/
theorem C23_pssh (b old : Pssh) (hk : b.kids.length < 2 ^ 32) (hd : b.data.length < 2 ^ 32)
    (h0 : b.version = 0 → b.kids = old.kids) : RoundTrip b.writeData (Pssh.readData old) b := by
  have := roundTrip_of (Pssh.write_eq b) (Pssh.size_eq b) (Pssh.read_eq b old hk hd)
  have e : b.stored old = b := by
    unfold Pssh.stored
    split
    · next hs => rw [← h0 hs]
    · rfl
  rwa [e] at this

/-- **C23** ftyp and styp -/
theorem C23_ftyp (b : Ftyp) : RoundTripEnd b.writeData Ftyp.readData b :=
  roundTripEnd_of (Ftyp.write_eq b) (Ftyp.size_eq b) (Ftyp.read_eq b)

/-- **C23** meta reads back as version 0 without flags, whatever was written (QuickTime files have no such field). -/
theorem C23_meta (b : Meta) : RoundTrip b.writeData Meta.readData ⟨⟨0, 0, 0, 0⟩⟩ :=
  roundTrip_of (Meta.write_eq b) (Meta.size_eq b) (Meta.read_any b)

example : ∃ b : Hdlr, b.name.length = 3 ∧ RoundTripEnd b.writeData Hdlr.readData b :=
  ⟨⟨⟨0, 0, 0, 0⟩, 0, ⟨0x76, 0x69, 0x64, 0x65⟩, ⟨0, 0, 0, 0⟩, ⟨0, 0, 0, 0⟩, ⟨0, 0, 0, 0⟩, [0x56, 0x69, 0x64], []⟩, rfl,
   C23_hdlr _ rfl rfl (by decide)⟩

example : ∃ (b : Hdlr) (pre d : List Byte), b.pre_defined ≠ 0 ∧ b.padding = [] ∧ (∀ c ∈ b.name, c ≠ 0) ∧
    (∀ c, b.name[0]? = some c → c.toNat ≠ b.name.length) ∧ b.name ≠ [] ∧
    bytesBits d = bytesBits pre ++ b.writeData.out :=
  ⟨⟨⟨0, 0, 0, 0⟩, 7, ⟨0, 0, 0, 0⟩, ⟨0, 0, 0, 0⟩, ⟨0, 0, 0, 0⟩, ⟨0, 0, 0, 0⟩, [0x56, 0x69, 0x64], []⟩, [],
   [0, 0, 0, 0, 0, 0, 0, 7, 0, 0, 0, 0, 0, 0, 0, 0, 0, 0, 0, 0, 0, 0, 0, 0, 0x56, 0x69, 0x64, 0],
   by decide, rfl, by decide, by intro c hc; cases hc; decide, by decide, by decide +kernel⟩

example : ∃ b old : Pssh, b.version ≠ 0 ∧ b.kids.length = 2 ∧ RoundTrip b.writeData (Pssh.readData old) b :=
  ⟨⟨⟨1, 0, 0, 0⟩, Vector.replicate 16 7, [Vector.replicate 16 1, Vector.replicate 16 2], [1, 2, 3]⟩,
   ⟨⟨0, 0, 0, 0⟩, Vector.replicate 16 0, [], []⟩, by decide, rfl, C23_pssh _ _ (by decide) (by decide) (by decide)⟩

/-! ### C24 esds -/

/-- A descriptor as a reader produces it: no attached sub-descriptor objects (they are listed behind it), URL at most
255 bytes, bit fields in range, absent optional fields with the values `g` that a fresh object has, length below 2^28. -/
def Descriptor.Plain (g : ESJunk) : Descriptor → Prop
  | .es f subs => subs = [] ∧ (-16 ≤ f.stream_priority.toInt ∧ f.stream_priority.toInt < 16) ∧
      (f.stream_dependence_flag = false → f.depends_on_esid = g.depends_on_esid) ∧
      (f.url_flag = true → f.url_string.length ≤ 255) ∧ (f.url_flag = false → f.url_string = []) ∧
      (f.ocr_stream_flag = false → f.OCRESID = g.OCRESID) ∧ f.sub_descriptors_size.toNat < 2 ^ 27
  | .decConfig f subs => subs = [] ∧ (-32 ≤ f.stream_type.toInt ∧ f.stream_type.toInt < 32) ∧
      f.buffer_size_db.toNat < 2 ^ 24 ∧ f.sub_descriptors_size.toNat < 2 ^ 27
  | .decSpecific data => data.length < 2 ^ 28
  | .slConfig data => data.length < 2 ^ 28

/-- **C24** Every list of plain descriptors reads back. -/
theorem C24_esds (b : Esds) (g : ESJunk) (h : ∀ x ∈ b.descriptors, x.Plain g) :
    RoundTripEnd b.writeData (Esds.readData g) b := by
  have hx : ∀ x ∈ b.descriptors, (x.UrlOk ∧ x.Fits) ∧ x.stored g = x := by
    intro x hx
    have hp := h x hx
    cases x with
    | es f subs =>
      obtain ⟨rfl, h1, h2, h3, h4, h5, h6⟩ := hp
      refine ⟨⟨h3, ?_, h1⟩, ?_⟩
      · rw [Layout.declaredSize, Layout.nestedSize, Layout.esOwnSize]
        by_cases hu : f.url_flag = true
        · have := h3 hu
          simp only [hu, ↓reduceIte]
          split <;> split <;> split <;> omega
        · have hu' : f.url_flag = false := by cases hb : f.url_flag <;> simp_all
          simp only [hu', Bool.false_eq_true, ↓reduceIte]
          split <;> split <;> split <;> omega
      · refine Descriptor.stored_es g f ?_ ?_ ?_
        · cases hd : f.stream_dependence_flag <;> simp_all
        · cases hd : f.url_flag <;> simp_all
        · cases hd : f.ocr_stream_flag <;> simp_all
    | decConfig f subs =>
      obtain ⟨rfl, h1, h2, h3⟩ := hp
      refine ⟨⟨trivial, ?_, h1, h2⟩, Descriptor.stored_decConfig g f⟩
      rw [Layout.declaredSize]
      split <;> simp <;> omega
    | decSpecific data => exact ⟨⟨trivial, hp, trivial⟩, rfl⟩
    | slConfig data => exact ⟨⟨trivial, hp, trivial⟩, rfl⟩
  have hr := roundTripEnd_of (Esds.write_eq b (fun x m => (hx x m).1.1)) (Esds.size_eq b (fun x m => (hx x m).1.1))
    (Esds.read_eq b g (fun x m => (hx x m).1))
  have e : b.descriptors.map (·.stored g) = b.descriptors := by
    conv => rhs; rw [← List.map_id b.descriptors]
    exact List.map_congr_left (fun x m => (hx x m).2)
  rw [e] at hr
  exact hr

/-- **C24** Descriptors built with attached sub-descriptors (`addSubDescriptor`) read back as the same fields with the
sub-descriptors' total size as explicit size. -/
theorem C24_esds_nested (b : Esds) (g : ESJunk) (hu : ∀ x ∈ b.descriptors, x.UrlOk) (hf : ∀ x ∈ b.descriptors, x.Fits) :
    RoundTripEnd b.writeData (Esds.readData g) { b with descriptors := b.descriptors.map (·.stored g) } :=
  roundTripEnd_of (Esds.write_eq b hu) (Esds.size_eq b hu) (Esds.read_eq b g (fun x m => ⟨hu x m, hf x m⟩))

/-- The usual AAC descriptors with their real sizes. -/
example (g : ESJunk) : ∀ x ∈ [Descriptor.es ⟨25, 0, false, false, false, 0, g.depends_on_esid, [], g.OCRESID⟩ [],
    .decConfig ⟨7, 0x40, 5, false, true, 0, 128000, 128000⟩ [], .decSpecific [0x11, 0x90], .slConfig [2]],
    Descriptor.Plain g x := by
  intro x hx
  simp only [List.mem_cons, List.not_mem_nil, or_false] at hx
  rcases hx with rfl | rfl | rfl | rfl <;> simp only [Descriptor.Plain] <;> simp <;> decide

/-! ### C26 sgpd -/

/-- **C26** `roll` and `prol`: every version and both length modes (entries carry an explicit length exactly when the
version is 1 and the default length 0). -/
theorem C26_roll (b old : Sgpd) (ht : isRoll b.grouping_type = true) (hn : b.roll_distances.length < 2 ^ 32)
    (he : ∀ e ∈ b.roll_distances, e.with_length = (b.version == 1 && b.default_length == 0) ∧
      (e.with_length = false → e.description_length = 0)) :
    RoundTrip b.writeData (Sgpd.readData old) (b.stored old) := by
  refine roundTrip_of (Sgpd.write_eq b) (Sgpd.size_eq b) (Sgpd.read_eq b old ?_)
  rcases grouping_cases b.grouping_type with ⟨g1, g2, g3, g4⟩ | ⟨g1, g2, g3, g4⟩ | ⟨g1, g2, g3, g4⟩ |
    ⟨g1, g2, g3, g4⟩ | ⟨g1, g2, g3, g4⟩ <;> rw [g1] at ht <;> try cases ht
  exact ⟨fun _ => ⟨hn, fun e m => ⟨(he e m).1, fun hw => (he e m).2 ((he e m).1.trans hw)⟩⟩, by simp [g2], by simp [g3],
    by simp [g4]⟩

/-- **C26** all grouping types; `Sgpd.Ok` says that entry counts and lengths agree with the entries, `Sgpd.stored` that
the entries of the other grouping types and the unused default field keep their values (Spec/LayoutEsds.lean). -/
theorem C26_sgpd (b old : Sgpd) (h : b.Ok old) : RoundTrip b.writeData (Sgpd.readData old) (b.stored old) :=
  roundTrip_of (Sgpd.write_eq b) (Sgpd.size_eq b) (Sgpd.read_eq b old h)

/-- **C26** An unknown grouping type: the common fields read back, no entries are written or read. -/
theorem C26_other (b old : Sgpd) (h1 : isRoll b.grouping_type = false) (h2 : isAlst b.grouping_type = false)
    (h3 : isRap b.grouping_type = false) (h4 : isTele b.grouping_type = false) :
    RoundTrip b.writeData (Sgpd.readData old) (b.stored old) ∧ b.writeData.out.length = 96 := by
  have hr := C26_sgpd b old ⟨by simp [h1], by simp [h2], by simp [h3], by simp [h4]⟩
  refine ⟨hr, ?_⟩
  rw [Sgpd.write_eq b, Sgpd.size_eq b]
  simp [Sgpd.getDataSize, h1, h2, h3, h4]

/-- **C26** Reading into a fresh box gives back the same box, when it holds entries of its own grouping type only and
the unused default field is 0. -/
theorem C26_fresh (b old : Sgpd) (h : b.Ok old)
    (hold : old.roll_distances = [] ∧ old.alternative_startup_entries = [] ∧ old.visual_random_access_entries = [] ∧
      old.temporal_level_entries = [])
    (h0 : b.version ≠ 1 → b.default_length = old.default_length)
    (h0' : b.version = 1 → b.default_sample_description_index = old.default_sample_description_index)
    (h1 : isRoll b.grouping_type = false → b.roll_distances = [])
    (h2 : isAlst b.grouping_type = false → b.alternative_startup_entries = [])
    (h3 : isRap b.grouping_type = false → b.visual_random_access_entries = [])
    (h4 : isTele b.grouping_type = false → b.temporal_level_entries = []) :
    RoundTrip b.writeData (Sgpd.readData old) b := by
  have := C26_sgpd b old h
  have e : b.stored old = b := by
    obtain ⟨fb, gt, dl, di, rs, as, vs, ts⟩ := b
    obtain ⟨k1, k2, k3, k4⟩ := hold
    simp only at h0 h0' h1 h2 h3 h4
    simp only [Sgpd.stored, Sgpd.mk.injEq, true_and, k1, k2, k3, k4]
    refine ⟨?_, ?_, ?_, ?_, ?_, ?_⟩
    · split
      · rfl
      · next hv => exact (h0 hv).symm
    · split
      · next hv => exact (h0' hv).symm
      · rfl
    · cases hb : isRoll gt <;> simp_all
    · cases hb : isAlst gt <;> simp_all
    · cases hb : isRap gt <;> simp_all
    · cases hb : isTele gt <;> simp_all
  rwa [e] at this

/-- A version-1 `alst` box with per-entry lengths meets the conditions. -/
example : ∃ b old : Sgpd, b.Ok old ∧ isAlst b.grouping_type = true ∧ b.alternative_startup_entries.length = 1 :=
  ⟨⟨⟨1, 0, 0, 0⟩, ⟨0x61, 0x6c, 0x73, 0x74⟩, 0, 0, [], [⟨16, true, 2, 5, [7, 8], [⟨1, 2⟩]⟩], [], []⟩,
   ⟨⟨0, 0, 0, 0⟩, ⟨0, 0, 0, 0⟩, 0, 0, [], [], [], []⟩,
   ⟨fun h => absurd h (by decide), fun _ => ⟨by decide, by
      intro e he
      simp only [List.mem_cons, List.not_mem_nil, or_false] at he
      subst he
      exact ⟨by decide, by decide, by decide, by decide, by decide⟩⟩, fun h => absurd h (by decide),
    fun h => absurd h (by decide)⟩, by decide, rfl⟩

/-! ### C27 opaque boxes -/

/-- **C27** free, skip, mdat and boxes of unknown type: the payload is the bytes of the box, read back one for one. -/
theorem C27_opaque (b : Opaque) : RoundTripEnd b.writeData Opaque.readData b ∧ b.writeData.out = bytesBits b.data := by
  refine ⟨roundTripEnd_of (Opaque.write_eq b) (Opaque.size_eq b) (Opaque.read_eq b), ?_⟩
  rw [Opaque.write_eq b]
  rfl

end Mp4
