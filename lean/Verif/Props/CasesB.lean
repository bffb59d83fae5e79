import Verif.Props.BitIO
import Verif.Props.Basics
import Verif.Props.RoundTripB
import Verif.Props.ReadExact
import Verif.Props.Reader
import Verif.Props.Track
import Verif.Props.Calendar
import Verif.Props.BoxSizes
import Verif.Props.ByteIO
import Verif.Props.H264
import Verif.Conformance.Harness

/-! # Concrete cases for C01, C21-C37, C46-C56: each theorem applied where all its hypotheses hold -/

namespace Mp4

example : (Reader.new ⟨[0xAB], 0⟩).readBits 9 = .error .eof :=
  C01_reader_eof _ (Reader.new_inv _ (by decide)) 9 (by decide)

/-! ### C21-C27 -/

def caseAudio : AudioSampleEntry :=
  ⟨fourcc "Opus", Vector.replicate 6 0, 1, 0, Vector.replicate 3 0, 2, 16, 0, 0, 0xBB800000, false, [], false⟩

example : RoundTrip caseAudio.writeData (AudioSampleEntry.readData { caseAudio with channel_count := 0, sample_rate := 0 }) caseAudio :=
  C21_audio_plain _ _ rfl rfl (Or.inl rfl) rfl rfl rfl

example := C21_audio_under_wave { caseAudio with under_wave := true } rfl [1, 2, 3] [1, 2, 3]

def caseAvcC (sets : List (List Byte)) : AvcC := ⟨1, 66, 0, 31, 0x3f, 3, 7, sets, [[0x68]], false, 0, 0, 0, 0, 0, 0, []⟩

example (old : AvcC) := C22_avcC_base (caseAvcC [[0x67, 0x42], [0x67]]) old rfl (by decide) (by decide) (by decide)

/-- 33 parameter sets are written without an error and do not come back. -/
example (old : AvcC) : ¬ RoundTripEnd (caseAvcC (List.replicate 33 [0x67])).writeData (AvcC.readData old) (caseAvcC (List.replicate 33 [0x67])) :=
  (C22_avcC_corrupted _ old rfl (by decide)).2

example : RoundTripEnd (Av1C.writeData ⟨1, 1, 0, 4, 0, false, false, false, 1, 1, 0, 0, false, 0, [0x0a, 0x0b]⟩) Av1C.readData
    ⟨1, 1, 0, 4, 0, false, false, false, 1, 1, 0, 0, false, 0, [0x0a, 0x0b]⟩ := C22_av1C _ (by constructor <;> decide)

example : RoundTrip (VpcC.writeData ⟨⟨1, 0, 0, 0⟩, 0, 10, 8, 1, 0, 2, 2, 2, [9]⟩) VpcC.readData ⟨⟨1, 0, 0, 0⟩, 0, 10, 8, 1, 0, 2, 2, 2, [9]⟩ :=
  C22_vpcC _ (by decide) (by decide) (by decide)

example : RoundTrip (DOps.writeData ⟨0, 2, 312, 48000, -80, 1, 1, 1, [0, 1]⟩) DOps.readData ⟨0, 2, 312, 48000, -80, 1, 1, 1, [0, 1]⟩ :=
  C22_dOps _ (by decide) (by decide)

def caseHdlr (pre : BitVec 32) (padding : List Byte) : Hdlr :=
  ⟨⟨0, 0, 0, 0⟩, pre, ⟨0x76, 0x69, 0x64, 0x65⟩, ⟨0, 0, 0, 0⟩, ⟨0, 0, 0, 0⟩, ⟨0, 0, 0, 0⟩, [0x56, 0x69, 0x64], padding⟩

example := C23_hdlr_predefined (caseHdlr 7 []) rfl (by decide) (by decide) (by intro c hc; cases hc; decide) [] (toBytes (caseHdlr 7 []).writeData.out)
  (by decide +kernel)

example : Hdlr.readData.run [] (caseHdlr 0 [1]).writeData.out = .error .eof := (C23_hdlr_padding_unreadable _ (by decide) rfl (by decide) []).2

example : RoundTrip (Url.writeData ⟨⟨0, 0, 0, 0⟩, [0x68, 0x74]⟩) (Url.readData ⟨⟨0, 0, 0, 1⟩, []⟩) ⟨⟨0, 0, 0, 0⟩, [0x68, 0x74]⟩ :=
  C23_url _ _ (by decide) (by decide)

example : RoundTrip (Urn.writeData ⟨⟨0, 0, 0, 0⟩, [0x68], [0x69, 0x6a]⟩) (Urn.readData ⟨⟨0, 0, 0, 1⟩, [], []⟩) ⟨⟨0, 0, 0, 0⟩, [0x68], [0x69, 0x6a]⟩ :=
  C23_urn _ _ (by decide) (by decide) (by decide)

example : RoundTripEnd (Emsg.writeData ⟨⟨1, 0, 0, 0⟩, [0x75], [0x76], 1000, 2 ^ 40, 5, 6, [0, 1, 2]⟩) Emsg.readData
    ⟨⟨1, 0, 0, 0⟩, [0x75], [0x76], 1000, 2 ^ 40, 5, 6, [0, 1, 2]⟩ := C23_emsg _ (by decide) (by decide) (by decide)

example : RoundTripEnd (Colr.writeData ⟨⟨0x6e, 0x63, 0x6c, 0x78⟩, 1, 2, 3, true, 5, [], []⟩)
    (Colr.readData ⟨⟨0, 0, 0, 0⟩, 0, 0, 0, false, 0, [], []⟩) ⟨⟨0x6e, 0x63, 0x6c, 0x78⟩, 1, 2, 3, true, 5, [], []⟩ :=
  C23_colr_nclx _ _ rfl (by decide) rfl rfl

example (old : Colr) := C23_colr_profile ⟨⟨0x72, 0x49, 0x43, 0x43⟩, 0, 0, 0, false, 0, [1, 2], []⟩ old (Or.inl rfl) (by decide)
example (old : Colr) := C23_colr_unknown ⟨⟨1, 2, 3, 4⟩, 0, 0, 0, false, 0, [], [8, 9]⟩ old (by decide) (by decide)

example (g : ESJunk) : RoundTripEnd (Esds.writeData ⟨⟨0, 0, 0, 0⟩, [.decSpecific [0x11, 0x90], .slConfig [2]]⟩) (Esds.readData g)
    ⟨⟨0, 0, 0, 0⟩, [.decSpecific [0x11, 0x90], .slConfig [2]]⟩ := C24_esds _ g (by
  intro x hx
  simp only [List.mem_cons, List.not_mem_nil, or_false] at hx
  rcases hx with rfl | rfl <;> simp [Descriptor.Plain])

def caseSgpd (type : Arr4) (rolls : List RollDistance) : Sgpd := ⟨⟨1, 0, 0, 0⟩, type, 0, 0, rolls, [], [], []⟩
def freshSgpd : Sgpd := ⟨⟨0, 0, 0, 0⟩, ⟨0, 0, 0, 0⟩, 0, 0, [], [], [], []⟩

example := C26_roll (caseSgpd ⟨0x72, 0x6f, 0x6c, 0x6c⟩ [⟨2, -1, true⟩, ⟨2, -2, true⟩]) freshSgpd (by decide) (by decide) (by decide)
example := C26_other (caseSgpd ⟨1, 2, 3, 4⟩ []) freshSgpd (by decide) (by decide) (by decide) (by decide)

example : RoundTrip (caseSgpd ⟨0x72, 0x6f, 0x6c, 0x6c⟩ [⟨2, -1, true⟩]).writeData (Sgpd.readData freshSgpd)
    (caseSgpd ⟨0x72, 0x6f, 0x6c, 0x6c⟩ [⟨2, -1, true⟩]) :=
  C26_fresh _ _ ⟨fun _ => ⟨by decide, by simp [caseSgpd, RollDistance.Ok, noDefaultLength]⟩, fun h => absurd h (by decide), fun h => absurd h (by decide), fun h => absurd h (by decide)⟩
    (by decide) (by decide) (by decide) (by decide) (by decide) (by decide) (by decide)

/-! ### C25, C30: runs on concrete payloads and files -/

def casePayload : List Byte := [0, 0, 0, 0, 0x10, 0x80, 0x80, 0x80, 9, 0, 0x4f, 0xff, 0xff, 0xff, 0xff, 0xff]

theorem ok_of_isSome {ε α : Type} (x : Except ε α) (h : x.toOption.isSome = true) : ∃ a, x = .ok a := by
  cases x with
  | error e => exact absurd h (by simp [Except.toOption])
  | ok a => exact ⟨a, rfl⟩

/-- An `iods` payload whose descriptor length is 9: it says it has read two bytes more than there are. -/
example : ∃ m b s', (BoxData.readData Conformance.junkEnv (fourcc "iods") false .iods).run casePayload (bytesBits casePayload) =
      .ok ((m, b), s') ∧ ∃ x : Iods, b = .iods x ∧ ∃ c ≤ 128, m = c + (8 * x.descriptor_length.toNat + (2 ^ 32 - 56)) % 2 ^ 32 := by
  obtain ⟨⟨⟨m, b⟩, s'⟩, h⟩ := ok_of_isSome
    ((BoxData.readData Conformance.junkEnv (fourcc "iods") false .iods).run casePayload (bytesBits casePayload)) (by decide +kernel)
  obtain ⟨x, h1, c, hc, -, h2⟩ := C25_iods _ _ _ _ _ _ _ h
  exact ⟨m, b, s', h, x, h1, c, hc, h2⟩

def caseAvcPayload : List Byte := [1, 66, 0, 31, 0xff, 0xe1, 0, 2, 0x67, 0x42, 1, 0, 1, 0x68, 9]

/-- An `avcC` payload with one byte behind the parameter sets. -/
example : ∃ m b s' c, (BoxData.readData Conformance.junkEnv (fourcc "avcC") false .avcC).run caseAvcPayload (bytesBits caseAvcPayload) =
      .ok ((m, b), s') ∧ (m = c ∨ (120 < c + 32 ∧ m = 120)) := by
  obtain ⟨⟨⟨m, b⟩, s'⟩, h⟩ := ok_of_isSome
    ((BoxData.readData Conformance.junkEnv (fourcc "avcC") false .avcC).run caseAvcPayload (bytesBits caseAvcPayload)) (by decide +kernel)
  obtain ⟨c, -, -, h2⟩ := C25_avcC _ _ _ _ _ _ _ h
  exact ⟨m, b, s', c, h, h2⟩

def caseEsdsPayload : List Byte := [0, 0, 0, 0, 0x77]

/-- An `esds` payload with a descriptor of unknown tag. -/
example : ∃ m b s' c, (BoxData.readData Conformance.junkEnv (fourcc "esds") false .esds).run caseEsdsPayload (bytesBits caseEsdsPayload) =
      .ok ((m, b), s') ∧ (m = c ∨ m = 48) := by
  obtain ⟨⟨⟨m, b⟩, s'⟩, h⟩ := ok_of_isSome
    ((BoxData.readData Conformance.junkEnv (fourcc "esds") false .esds).run caseEsdsPayload (bytesBits caseEsdsPayload)) (by decide +kernel)
  obtain ⟨c, -, -, h2⟩ := C25_esds _ _ _ _ _ _ _ h
  exact ⟨m, b, s', c, h, h2⟩

/-- A file of two boxes, one inside the other. -/
def caseFile : SimpleReader := ⟨false, fun _ => Conformance.junkEnv, stdBoxMap,
  [0, 0, 0, 19, 0x6d, 0x6f, 0x6f, 0x76, 0, 0, 0, 11, 0x66, 0x72, 0x65, 0x65, 1, 2, 3]⟩

example : ∃ ts, ts.length = 1 ∧ Tree.NestedList 0 19 ts := by
  obtain ⟨vs, ts, h, hl⟩ : ∃ vs ts, caseFile.read = some ⟨vs, .ok ts⟩ ∧ ts.length = 1 := by
    have hc : (match caseFile.read with | some ⟨_, .ok ts⟩ => decide (ts.length = 1) | _ => false) = true := by decide +kernel
    generalize caseFile.read = r at hc
    match r, hc with
    | some ⟨vs, .ok ts⟩, hc => exact ⟨vs, ts, rfl, of_decide_eq_true hc⟩
  exact ⟨ts, hl, C30_nested caseFile (by decide) vs ts h⟩

/-! ### C32-C37 -/

example : ((make_stts_entries [33, 33, 34]).map (·.sample_count.toNat)).sum = 3 := C32_counts _ (by decide)

/-- A writer that only remembers the data. -/
def caseWriter : MdatWriter (List Byte) := ⟨fun w => BitVec.ofNat 64 w.length, fun w d => w ++ d⟩

def caseHistory : List TrackCall := [.sample ⟨0, [1, 2, 3], true⟩, .sample ⟨3000, [4], false⟩, .terminate, .terminate,
  .sample ⟨6500, [5, 6], true⟩]

theorem caseTrack_exists : ∃ t, Track.new ⟨90000, 9000, 100, 0, 0, 1⟩ (.vpx true 320 240 0 0) = .ok t := ⟨_, rfl⟩

example : ∃ t, Track.new ⟨90000, 9000, 100, 0, 0, 1⟩ (.vpx true 320 240 0 0) = .ok t ∧
    ∀ c ∈ (@Track.run (List Byte) caseWriter t [] caseHistory).1.finalize.chunk_infos, 0 < c.number_of_samples.toNat := by
  obtain ⟨t, ht⟩ := caseTrack_exists
  exact ⟨t, ht, (@C35_counts (List Byte) caseWriter _ _ t [] caseHistory ht (by decide)).2.2.1⟩

example : ∃ t, Track.new ⟨90000, 9000, 100, 0, 0, 1⟩ (.vpx true 320 240 0 0) = .ok t ∧
    (@Track.run (List Byte) caseWriter t [] caseHistory).1.finalize.sample_durations.foldr (· + ·) 0 = 9000 := by
  obtain ⟨t, ht⟩ := caseTrack_exists
  exact ⟨t, ht, @C36_telescope (List Byte) caseWriter _ _ t [] caseHistory ht ⟨0, [1, 2, 3], true⟩
    [⟨3000, [4], false⟩, ⟨6500, [5, 6], true⟩] rfl⟩

example : ((Spec.durations 9000 [0, 3000, 6500])[2]?.map (·.toNat)) = some 2500 :=
  C36_exact 9000 [0, 3000, 6500] 2 6500 9000 rfl rfl (by decide) (by decide)

/-- Terminating after finalizing lists the last chunk twice. -/
example : ∃ t : Track, t.finalized = false ∧ t.finalize.terminateCurrentChunk.chunk_infos = [⟨5, 2, true⟩, ⟨5, 2, true⟩] := by
  obtain ⟨t, ht⟩ := caseTrack_exists
  have h : { t with current_chunk_info := ⟨5, 2, true⟩ }.finalized = false := by cases ht; rfl
  refine ⟨{ t with current_chunk_info := ⟨5, 2, true⟩ }, h, ?_⟩
  rw [C35_terminate_after_finalize _ h (show (2 : BitVec 32) > 0 by decide)]
  cases ht; rfl

/-! ### C46-C56 -/

/-- The last unit and its start code have 5 bytes: it is taken into the unit before it. -/
example := C46_short_last_unit_is_absorbed [(true, [0x67, 0x42])] false [0x65, 0x88] (false, [0x09, 0xf0]) (by
  intro u hu
  simp only [List.cons_append, List.nil_append, List.mem_cons, List.not_mem_nil, or_false] at hu
  rcases hu with rfl | rfl | rfl <;> unfold Spec.NalOk <;> decide) (by decide)

example := C47_scanner_terminates [0, 0, 1, 0x65, 0x88, 0x84, 0, 0, 1, 0x09, 0xf0] 0 12 (by decide)

example : BoxType.toText (fourcc "moov") ≠ BoxType.toText (fourcc "moof") := fun h =>
  absurd (C50_toText_injective _ _ h) (by decide +kernel)

example : format_epoch_19040101 (convert_to_epoch_19040101 1700000000) = .calendar 1700000000 := (C51_format_converted 1700000000).1 (by decide)

example : format_epoch_19040101 1000 = .calendar (-2082843800) := C51_format_before_1970 1000 (by decide)

/-- 2000-02-29T23:59:59 -/
example : timeText 3034713599 = .ok b!"2000-02-29T23:59:59Z" :=
  C51_calendar_of_date ⟨2000, 2, 29, 23, 59, 59⟩ (by unfold Spec.validDate; decide +kernel) 3034713599 (by decide +kernel) (by decide)

example : timeText 0 ≠ timeText 6377812095 := fun h => absurd (C51_text_injective 0 6377812095 (by decide) (by decide) h) (by decide)

/-- `avcC` of the base profile with the fields of the high profiles: everything before them is already written when it throws. -/
example := C53_avcC_partial_output { caseAvcC [[0x67]] with high_profile_fields_enabled := true } rfl (by decide +kernel)

example := C53_esds_partial_output ⟨0, 0, 0, 0⟩ [.decSpecific [0x11]] (by
    intro d hd
    simp only [List.mem_cons, List.not_mem_nil, or_false] at hd
    subst hd
    simp [Descriptor.UrlOk]) ⟨300, 0, false, true, false, 0, 0, List.replicate 256 0x61, 0⟩ [] [] rfl (by rw [List.length_replicate]; decide)

example : (BoxData.avcC { caseAvcC [[0x67]] with high_profile_fields_enabled := true }).writeData.out ≠ [] := by
  obtain ⟨e, he⟩ := (C53_avcC_partial_output { caseAvcC [[0x67]] with high_profile_fields_enabled := true } rfl (by decide +kernel)).1
  exact C53_partial_output _ e he

example := C56_writer_mixed ⟨[], 0⟩ [.bytes [0xAB], .bits [0x5] 3, .bytes [0xFF], .bits [0x1F] 5, .bytes [0xCD]] (by simp [WCall.Valid])

example := C56_reader_mixed [0xAB, 0xCD, 0xEF] 1 (by decide) [.bits 4, .bytes 1, .seek 0 .cur, .bits 4, .bytes 1, .bits 3]

end Mp4
