import Verif.Lemmas.Box

/-!
# C16–C20, C54: reading back fixed, versioned, table and fragment boxes

`RoundTrip m p a` (Spec/RoundTrip.lean): the encoder reports what it wrote and the decoder, on those bits followed by
anything, returns `a`, reports the same number of bits and stops right behind them.
-/

namespace Mp4

/-! ### C16 -/

/-- **C16** -/
theorem C16_btrt (b : Btrt) : RoundTrip b.writeData Btrt.readData b :=
  roundTrip_of (Btrt.write_eq b) (Btrt.size_eq b) (Btrt.read_eq b)
/-- **C16** -/
theorem C16_pasp (b : Pasp) : RoundTrip b.writeData Pasp.readData b :=
  roundTrip_of (Pasp.write_eq b) (Pasp.size_eq b) (Pasp.read_eq b)
/-- **C16** -/
theorem C16_fiel (b : Fiel) : RoundTrip b.writeData Fiel.readData b :=
  roundTrip_of (Fiel.write_eq b) (Fiel.size_eq b) (Fiel.read_eq b)
/-- **C16** -/
theorem C16_smhd (b : Smhd) : RoundTrip b.writeData Smhd.readData b :=
  roundTrip_of (Smhd.write_eq b) (Smhd.size_eq b) (Smhd.read_eq b)
/-- **C16** -/
theorem C16_vmhd (b : Vmhd) : RoundTrip b.writeData Vmhd.readData b :=
  roundTrip_of (Vmhd.write_eq b) (Vmhd.size_eq b) (Vmhd.read_eq b)
/-- **C16** -/
theorem C16_mfhd (b : Mfhd) : RoundTrip b.writeData Mfhd.readData b :=
  roundTrip_of (Mfhd.write_eq b) (Mfhd.size_eq b) (Mfhd.read_eq b)
/-- **C16** -/
theorem C16_mfro (b : Mfro) : RoundTrip b.writeData Mfro.readData b :=
  roundTrip_of (Mfro.write_eq b) (Mfro.size_eq b) (Mfro.read_eq b)
/-- **C16** -/
theorem C16_dref (b : Dref) : RoundTrip b.writeData Dref.readData b :=
  roundTrip_of (Dref.write_eq b) (Dref.size_eq b) (Dref.read_eq b)
/-- **C16** -/
theorem C16_stsd (b : Stsd) : RoundTrip b.writeData Stsd.readData b :=
  roundTrip_of (Stsd.write_eq b) (Stsd.size_eq b) (Stsd.read_eq b)
/-- **C16** -/
theorem C16_trex (b : Trex) : RoundTrip b.writeData Trex.readData b :=
  roundTrip_of (Trex.write_eq b) (Trex.size_eq b) (Trex.read_eq b)

/-- **C16** The boxes without own fields write and read nothing. -/
theorem C16_containers (env : Env) (t : BoxType) (wave : Bool) :
    RoundTrip BoxData.empty.writeData (BoxData.readData env t wave .empty) .empty :=
  ⟨rfl, fun _ _ => rfl⟩

/-- **C16** `iods`: all fields are read back, and the reader stops right behind them.  The number of bits it *reports* is
right only for the descriptor length 7; in general it is too high by `8 * (descriptor_length - 7)`, computed modulo
2^32 (so for lengths below 7 it is too high by almost 2^32). -/
theorem C16_iods (b : Iods) (h : b.descriptor_length.toNat < 2 ^ 28) :
    b.writeData.res = .ok b.writeData.out.length ∧
    ∀ (d : List Byte) (rest : List Bool), Iods.readData.run d (b.writeData.out ++ rest)
      = .ok ((b.writeData.out.length + ((b.descriptor_length - 7#32) * 8#32).toNat, b), rest) := by
  have hs := Iods.size_eq b
  rw [Iods.write_eq b]
  refine ⟨by rw [← hs], fun d rest => ?_⟩
  rw [hs]
  exact Iods.read_eq b d rest h

/-- **C16** `iods` with descriptor length 7 round-trips. -/
theorem C16_iods_seven (b : Iods) (h : b.descriptor_length = 7) : RoundTrip b.writeData Iods.readData b := by
  have := C16_iods b (by rw [h]; decide)
  simpa [RoundTrip, h] using this

example : ∃ b : Iods, b.descriptor_length = 7 ∧ b.od_profile_level = 0x4f :=
  ⟨⟨⟨0, 0, 0, 0⟩, 0x10, 7, 0, 0x4f, 0xff, 0xff, 0xff, 0xff⟩, by decide, by decide⟩

/-! ### C17 -/

/-- **C17** `mvhd`; in version 0 the times must fit 32 bits. -/
theorem C17_mvhd (b : Mvhd)
    (h : b.version = 0#8 → b.creation_time.toNat < 2 ^ 32 ∧ b.modification_time.toNat < 2 ^ 32 ∧
      b.duration.toNat < 2 ^ 32) : RoundTrip b.writeData Mvhd.readData b :=
  roundTrip_of (Mvhd.write_eq b) (Mvhd.size_eq b)
    (fun d rest => Mvhd.read_eq b d rest (fun v => (h v).1) (fun v => (h v).2.1) (fun v => (h v).2.2))

/-- **C17** `tkhd` -/
theorem C17_tkhd (b : Tkhd)
    (h : b.version = 0#8 → b.creation_time.toNat < 2 ^ 32 ∧ b.modification_time.toNat < 2 ^ 32 ∧
      b.duration.toNat < 2 ^ 32) : RoundTrip b.writeData Tkhd.readData b :=
  roundTrip_of (Tkhd.write_eq b) (Tkhd.size_eq b)
    (fun d rest => Tkhd.read_eq b d rest (fun v => (h v).1) (fun v => (h v).2.1) (fun v => (h v).2.2))

/-- **C17** `mdhd`; the language letters must be from 0x60 to 0x7f. -/
theorem C17_mdhd (b : Mdhd) (hl : LangOk b.language)
    (h : b.version = 0#8 → b.creation_time.toNat < 2 ^ 32 ∧ b.modification_time.toNat < 2 ^ 32 ∧
      b.duration.toNat < 2 ^ 32) : RoundTrip b.writeData Mdhd.readData b := by
  refine roundTrip_of (Mdhd.write_eq b hl) ?_
    (fun d rest => Mdhd.read_eq b d rest (fun v => (h v).1) (fun v => (h v).2.1) (fun v => (h v).2.2) hl)
  have := Mdhd.size_raw b
  rwa [Mdhd.write_eq b hl] at this

/-- **C17** `mehd` -/
theorem C17_mehd (b : Mehd) (h : b.version = 0#8 → b.fragment_duration.toNat < 2 ^ 32) :
    RoundTrip b.writeData Mehd.readData b :=
  roundTrip_of (Mehd.write_eq b) (Mehd.size_eq b) (fun d rest => Mehd.read_eq b d rest h)

/-- **C17** `tfdt` -/
theorem C17_tfdt (b : Tfdt) (h : b.version = 0#8 → b.base_media_decode_time.toNat < 2 ^ 32) :
    RoundTrip b.writeData Tfdt.readData b :=
  roundTrip_of (Tfdt.write_eq b) (Tfdt.size_eq b) (fun d rest => Tfdt.read_eq b d rest h)

/-- **C17** `elst` of any length; in version 0 the signed media times must fit 32 bits. -/
theorem C17_elst (b : Elst) (hn : b.entries.length < 2 ^ 32)
    (h : b.version = 0#8 → ∀ e ∈ b.entries, e.track_duration.toNat < 2 ^ 32 ∧
      -(2 ^ 31) ≤ e.media_time.toInt ∧ e.media_time.toInt < 2 ^ 31) : RoundTrip b.writeData Elst.readData b :=
  roundTrip_of (Elst.write_eq b) (Elst.size_eq b)
    (fun d rest => Elst.read_eq b d rest hn (fun e he => ⟨fun v => (h v e he).1, fun v => (h v e he).2⟩))

/-- **C17** `sidx` -/
theorem C17_sidx (b : Sidx) (hn : b.references.length < 2 ^ 16)
    (h : b.version = 0#8 → b.earliest_presentation_time.toNat < 2 ^ 32 ∧ b.first_offset.toNat < 2 ^ 32)
    (he : ∀ r ∈ b.references, r.reference_size.toNat < 2 ^ 31 ∧ r.sap_type.toNat < 2 ^ 3 ∧
      r.sap_delta_time.toNat < 2 ^ 28) : RoundTrip b.writeData Sidx.readData b :=
  roundTrip_of (Sidx.write_eq b) (Sidx.size_eq b)
    (fun d rest => Sidx.read_eq b d rest hn (fun v => (h v).1) (fun v => (h v).2) he)

example : ∃ b : Elst, b.version = 0#8 ∧ b.entries.length < 2 ^ 32 ∧ b.entries ≠ [] ∧
    ∀ e ∈ b.entries, e.track_duration.toNat < 2 ^ 32 ∧ -(2 ^ 31) ≤ e.media_time.toInt ∧ e.media_time.toInt < 2 ^ 31 :=
  ⟨⟨⟨0, 0, 0, 0⟩, [⟨5000, -1, 0x10000⟩]⟩, by decide⟩

example : LangOk ⟨0x6a, 0x70, 0x6e⟩ := by simp only [LangOk]; decide

/-! ### C18 -/

/-- What is left of an unsigned 64-bit field: version 0 keeps the low 32 bits. -/
def keptTime (fb : FullBox) (v : BitVec 64) : BitVec 64 := if fb.version = 0#8 then BitVec.ofNat 64 (v.toNat % 2 ^ 32) else v

/-- What is left of a signed 64-bit field: version 0 keeps the sign and the low 31 bits. -/
def keptSTime (fb : FullBox) (v : BitVec 64) : BitVec 64 :=
  if fb.version = 0#8 then BitVec.ofInt 64 ((v.toNat % 2 ^ 31 : Nat) - (if v.msb then (2 ^ 31 : Int) else 0)) else v

theorem keptTime_fits (fb : FullBox) (v : BitVec 64) : TimeFits fb (keptTime fb v) := by
  intro h
  rw [keptTime, if_pos h, BitVec.toNat_ofNat]
  omega

theorem keptTime_layout (fb : FullBox) (v : BitVec 64) : Layout.time fb (keptTime fb v) = Layout.time fb v := by
  unfold Layout.time keptTime
  split
  · rw [ubits, ubits, BitVec.toNat_ofNat, natBits_mod_le _ _ _ (by decide), natBits_mod]
  · rfl

/-- The result of `BitVec.ofInt` on a 32-bit range. -/
theorem toInt_ofInt32 (x : Int) (h0 : -(2 ^ 31) ≤ x) (h1 : x < 2 ^ 31) : (BitVec.ofInt 64 x).toInt = x := by
  rw [BitVec.toInt_ofInt]
  simp only [Int.bmod_def]
  omega

theorem keptSTime_range (v : BitVec 64) :
    -(2 ^ 31) ≤ ((v.toNat % 2 ^ 31 : Nat) - (if v.msb then (2 ^ 31 : Int) else 0)) ∧
    ((v.toNat % 2 ^ 31 : Nat) - (if v.msb then (2 ^ 31 : Int) else 0)) < 2 ^ 31 := by
  split <;> omega

theorem keptSTime_fits (fb : FullBox) (v : BitVec 64) : STimeFits fb (keptSTime fb v) := by
  intro h
  rw [keptSTime, if_pos h, SFits, toInt_ofInt32 _ (keptSTime_range v).1 (keptSTime_range v).2]
  exact keptSTime_range v

theorem keptSTime_layout (fb : FullBox) (v : BitVec 64) : Layout.stime fb (keptSTime fb v) = Layout.stime fb v := by
  unfold Layout.stime keptSTime
  split
  · rw [sbits, sbits]
    have hr := keptSTime_range v
    have hi := toInt_ofInt32 _ hr.1 hr.2
    congr 1
    · rw [BitVec.msb_eq_toInt, hi]
      cases v.msb <;> simp <;> omega
    · rw [← natBits_mod (32 - 1) v.toNat, ← natBits_mod (32 - 1) (BitVec.ofInt 64 _).toNat]
      congr 1
      rw [BitVec.toNat_ofInt]
      cases v.msb <;> simp <;> omega
  · rfl

/-- **C18** An unsigned 64-bit value survives exactly when the version is not 0 or the value is below 2^32. -/
theorem C18_time_survives_iff (fb : FullBox) (v : BitVec 64) :
    keptTime fb v = v ↔ (fb.version ≠ 0#8 ∨ v.toNat < 2 ^ 32) := by
  unfold keptTime
  by_cases h : fb.version = 0#8
  · rw [if_pos h]
    simp only [h, ne_eq, not_true_eq_false, false_or]
    rw [← BitVec.toNat_inj, BitVec.toNat_ofNat]
    omega
  · simp [h]

/-- **C18** A signed one exactly when the version is not 0 or the value is in the 32-bit range. -/
theorem C18_signed_time_survives_iff (fb : FullBox) (v : BitVec 64) :
    keptSTime fb v = v ↔ (fb.version ≠ 0#8 ∨ (-(2 ^ 31) ≤ v.toInt ∧ v.toInt < 2 ^ 31)) := by
  unfold keptSTime
  by_cases h : fb.version = 0#8
  · rw [if_pos h]
    simp only [h, ne_eq, not_true_eq_false, false_or]
    have hr := keptSTime_range v
    have hi := toInt_ofInt32 _ hr.1 hr.2
    rw [← BitVec.toInt_inj, hi]
    have h1 : v.msb = decide (2 ^ 63 ≤ v.toNat) := by rw [BitVec.msb_eq_decide]
    have h2 := v.toInt_eq_toNat_cond
    have h3 := v.isLt
    by_cases hm : 2 ^ 63 ≤ v.toNat
    · rw [h1, decide_eq_true hm]
      simp only [↓reduceIte]
      rw [h2, if_neg (by omega)]
      omega
    · rw [h1, decide_eq_false hm]
      simp only [Bool.false_eq_true, ↓reduceIte]
      rw [h2, if_pos (by omega)]
      omega
  · simp [h]

/-- **C18** What every `mvhd` reads back as: in version 0 the times modulo 2^32. -/
theorem C18_mvhd (b : Mvhd) : RoundTrip b.writeData Mvhd.readData
    { b with creation_time := keptTime b.toFullBox b.creation_time,
             modification_time := keptTime b.toFullBox b.modification_time,
             duration := keptTime b.toFullBox b.duration } := by
  refine roundTrip_of (Mvhd.write_eq b) (Mvhd.size_eq b) (fun d rest => ?_)
  have := Mvhd.read_eq
    { b with creation_time := keptTime b.toFullBox b.creation_time,
             modification_time := keptTime b.toFullBox b.modification_time,
             duration := keptTime b.toFullBox b.duration } d rest (keptTime_fits _ _) (keptTime_fits _ _) (keptTime_fits _ _)
  simpa only [Layout.mvhd, keptTime_layout, Mvhd.getDataSize] using this

/-- **C18** `tkhd` -/
theorem C18_tkhd (b : Tkhd) : RoundTrip b.writeData Tkhd.readData
    { b with creation_time := keptTime b.toFullBox b.creation_time,
             modification_time := keptTime b.toFullBox b.modification_time,
             duration := keptTime b.toFullBox b.duration } := by
  refine roundTrip_of (Tkhd.write_eq b) (Tkhd.size_eq b) (fun d rest => ?_)
  have := Tkhd.read_eq
    { b with creation_time := keptTime b.toFullBox b.creation_time,
             modification_time := keptTime b.toFullBox b.modification_time,
             duration := keptTime b.toFullBox b.duration } d rest (keptTime_fits _ _) (keptTime_fits _ _) (keptTime_fits _ _)
  simpa only [Layout.tkhd, keptTime_layout, Tkhd.getDataSize] using this

/-- **C18** `mdhd` -/
theorem C18_mdhd (b : Mdhd) (hl : LangOk b.language) : RoundTrip b.writeData Mdhd.readData
    { b with creation_time := keptTime b.toFullBox b.creation_time,
             modification_time := keptTime b.toFullBox b.modification_time,
             duration := keptTime b.toFullBox b.duration } := by
  have hs := Mdhd.size_raw b
  rw [Mdhd.write_eq b hl] at hs
  refine roundTrip_of (Mdhd.write_eq b hl) hs (fun d rest => ?_)
  have := Mdhd.read_eq
    { b with creation_time := keptTime b.toFullBox b.creation_time,
             modification_time := keptTime b.toFullBox b.modification_time,
             duration := keptTime b.toFullBox b.duration } d rest (keptTime_fits _ _) (keptTime_fits _ _)
             (keptTime_fits _ _) hl
  simpa only [Layout.mdhd, keptTime_layout, Mdhd.getDataSize] using this

/-- **C18** `mehd` -/
theorem C18_mehd (b : Mehd) : RoundTrip b.writeData Mehd.readData
    { b with fragment_duration := keptTime b.toFullBox b.fragment_duration } := by
  refine roundTrip_of (Mehd.write_eq b) (Mehd.size_eq b) (fun d rest => ?_)
  have := Mehd.read_eq
    { b with fragment_duration := keptTime b.toFullBox b.fragment_duration } d rest
    (keptTime_fits _ _)
  simpa only [Layout.mehd, keptTime_layout, Mehd.getDataSize] using this

/-- **C18** `tfdt` -/
theorem C18_tfdt (b : Tfdt) : RoundTrip b.writeData Tfdt.readData
    { b with base_media_decode_time := keptTime b.toFullBox b.base_media_decode_time } := by
  refine roundTrip_of (Tfdt.write_eq b) (Tfdt.size_eq b) (fun d rest => ?_)
  have := Tfdt.read_eq
    { b with base_media_decode_time := keptTime b.toFullBox b.base_media_decode_time } d rest
    (keptTime_fits _ _)
  simpa only [Layout.tfdt, keptTime_layout, Tfdt.getDataSize] using this

/-- **C18** `elst` -/
theorem C18_elst (b : Elst) (hn : b.entries.length < 2 ^ 32) : RoundTrip b.writeData Elst.readData
    { b with entries := b.entries.map fun e => { e with
        track_duration := keptTime b.toFullBox e.track_duration
        media_time := keptSTime b.toFullBox e.media_time } } := by
  refine roundTrip_of (Elst.write_eq b) (Elst.size_eq b) (fun d rest => ?_)
  have := Elst.read_eq
    { b with entries := b.entries.map fun e => { e with
        track_duration := keptTime b.toFullBox e.track_duration
        media_time := keptSTime b.toFullBox e.media_time } } d rest (by simpa using hn) (by
      intro e he
      obtain ⟨e', -, rfl⟩ := List.mem_map.mp he
      exact ⟨keptTime_fits _ _, keptSTime_fits _ _⟩)
  have he : (Layout.elstEntry b.toFullBox) = fun e => Layout.time b.toFullBox e.track_duration ++
      Layout.stime b.toFullBox e.media_time ++ bits e.media_rate := rfl
  simpa only [Layout.elst, he, List.flatMap_map, List.length_map, keptTime_layout, keptSTime_layout,
    Elst.getDataSize] using this

/-- **C18** `sidx` -/
theorem C18_sidx (b : Sidx) (hn : b.references.length < 2 ^ 16)
    (he : ∀ r ∈ b.references, r.reference_size.toNat < 2 ^ 31 ∧ r.sap_type.toNat < 2 ^ 3 ∧
      r.sap_delta_time.toNat < 2 ^ 28) : RoundTrip b.writeData Sidx.readData
    { b with earliest_presentation_time := keptTime b.toFullBox b.earliest_presentation_time,
             first_offset := keptTime b.toFullBox b.first_offset } := by
  refine roundTrip_of (Sidx.write_eq b) (Sidx.size_eq b) (fun d rest => ?_)
  have := Sidx.read_eq
    { b with earliest_presentation_time := keptTime b.toFullBox b.earliest_presentation_time,
             first_offset := keptTime b.toFullBox b.first_offset } d rest hn (keptTime_fits _ _) (keptTime_fits _ _) he
  simpa only [Layout.sidx, keptTime_layout, Sidx.getDataSize] using this

/-! ### C19, C54 -/

/-- **C19** -/
theorem C19_stts (b : Stts) (h : b.entries.length < 2 ^ 32) : RoundTrip b.writeData Stts.readData b :=
  roundTrip_of (Stts.write_eq b) (Stts.size_eq b) (fun d rest => Stts.read_eq b d rest h)
/-- **C19** `ctts`; offsets are 64-bit in memory and 32-bit in the file. -/
theorem C19_ctts (b : Ctts) (h : b.entries.length < 2 ^ 32)
    (he : ∀ e ∈ b.entries, -(2 ^ 31) ≤ e.sample_offset.toInt ∧ e.sample_offset.toInt < 2 ^ 31) :
    RoundTrip b.writeData Ctts.readData b :=
  roundTrip_of (Ctts.write_eq b) (Ctts.size_eq b) (fun d rest => Ctts.read_eq b d rest h he)
/-- **C19** -/
theorem C19_stsc (b : Stsc) (h : b.entries.length < 2 ^ 32) : RoundTrip b.writeData Stsc.readData b :=
  roundTrip_of (Stsc.write_eq b) (Stsc.size_eq b) (fun d rest => Stsc.read_eq b d rest h)
/-- **C19** -/
theorem C19_stco (b : Stco) (h : b.chunk_offsets.length < 2 ^ 32) : RoundTrip b.writeData Stco.readData b :=
  roundTrip_of (Stco.write_eq b) (Stco.size_eq b) (fun d rest => Stco.read_eq b d rest h)
/-- **C19** -/
theorem C19_co64 (b : Co64) (h : b.chunk_offsets.length < 2 ^ 32) : RoundTrip b.writeData Co64.readData b :=
  roundTrip_of (Co64.write_eq b) (Co64.size_eq b) (fun d rest => Co64.read_eq b d rest h)
/-- **C19** -/
theorem C19_stss (b : Stss) (h : b.sample_numbers.length < 2 ^ 32) : RoundTrip b.writeData Stss.readData b :=
  roundTrip_of (Stss.write_eq b) (Stss.size_eq b) (fun d rest => Stss.read_eq b d rest h)
/-- **C19** `stsz` with a table of sizes. -/
theorem C19_stsz (b : Stsz) (h : b.entry_sizes.length < 2 ^ 32) (h0 : b.sample_size = 0) :
    RoundTrip b.writeData Stsz.readData b :=
  roundTrip_of (Stsz.write_eq b) (Stsz.size_eq b) (fun d rest => Stsz.read_eq b d rest h h0)
/-- **C19** `sdtp` has no count: it is the rest of its box. -/
theorem C19_sdtp (b : Sdtp) (h : ∀ s ∈ b.samples, s.is_leading.toNat < 4 ∧ s.sample_depends_on.toNat < 4 ∧
      s.sample_is_depended_on.toNat < 4 ∧ s.sample_has_redundancy.toNat < 4) :
    RoundTripEnd b.writeData Sdtp.readData b :=
  roundTripEnd_of (Sdtp.write_eq b) (Sdtp.size_eq b) (fun d => Sdtp.read_eq b d h)
/-- **C19** `sbgp`; version 0 has no grouping type parameter. -/
theorem C19_sbgp (b : Sbgp) (old : BitVec 32) (h : b.entries.length < 2 ^ 32)
    (h0 : b.version = 0#8 → b.grouping_type_parameter = old) : RoundTrip b.writeData (Sbgp.readData old) b := by
  refine roundTrip_of (Sbgp.write_eq b) (Sbgp.size_eq b) (fun d rest => ?_)
  rw [Sbgp.read_eq b old d rest h]
  obtain ⟨fb, t, p, es⟩ := b
  by_cases hv : fb.version = 0#8
  · have := h0 hv
    simp only at this
    subst this
    simp
  · simp [hv]

/-- **C54** `stsz` with a constant sample size: everything is read back except the table of sizes, which is not in the
file; so the number of samples the box describes is lost. -/
theorem C54_stsz_constant (b : Stsz) (h : b.sample_size ≠ 0) :
    RoundTrip b.writeData Stsz.readData { b with entry_sizes := [] } :=
  roundTrip_of (Stsz.write_eq b) (Stsz.size_eq b) (fun d rest => Stsz.read_const b d rest h)

/-- **C54** The sample count of an `stsz` box survives exactly when the sizes are listed one by one (or there are none). -/
theorem C54_count_survives_iff (b : Stsz) (hn : b.entry_sizes.length < 2 ^ 32) :
    RoundTrip b.writeData Stsz.readData b ↔ (b.sample_size = 0 ∨ b.entry_sizes = []) := by
  constructor
  · intro h
    by_cases h0 : b.sample_size = 0
    · exact Or.inl h0
    · right
      have h1 := (C54_stsz_constant b h0).2 [] []
      rw [h.2 [] []] at h1
      simp only [Except.ok.injEq, Prod.mk.injEq, true_and, and_true] at h1
      rw [h1]
  · rintro (h | h)
    · exact C19_stsz b hn h
    · by_cases h0 : b.sample_size = 0
      · exact C19_stsz b hn h0
      · have := C54_stsz_constant b h0
        rwa [← h] at this

/-! ### C20 -/

/-- **C20** `tfhd`, every combination of flags: the fields the flags select are read back.  (Fields not selected are not
in the file; they must already have the same value in the reading object for the result to be the same object.) -/
theorem C20_tfhd (b old : Tfhd)
    (h0 : b.checkFlag 0x1#32 = false → b.base_data_offset = old.base_data_offset)
    (h1 : b.checkFlag 0x2#32 = false → b.sample_description_index = old.sample_description_index)
    (h2 : b.checkFlag 0x8#32 = false → b.default_sample_duration = old.default_sample_duration)
    (h3 : b.checkFlag 0x10#32 = false → b.default_sample_size = old.default_sample_size)
    (h4 : b.checkFlag 0x20#32 = false → b.default_sample_flags = old.default_sample_flags) :
    RoundTrip b.writeData (Tfhd.readData old) b := by
  refine roundTrip_of (Tfhd.write_eq b) (Tfhd.size_eq b) (fun d rest => ?_)
  rw [Tfhd.read_eq b old d rest]
  have : b.stored old = b := by
    obtain ⟨fb, t, a, c, e, f, g⟩ := b
    simp only [Tfhd.stored, Tfhd.mk.injEq, true_and]
    simp only at h0 h1 h2 h3 h4
    refine ⟨?_, ?_, ?_, ?_, ?_⟩ <;> split <;> simp_all
  rw [this]

/-- **C20** and the other way round: whatever the flags, reading gives the selected fields of the written box and leaves
the others as they were. -/
theorem C20_tfhd_fields (b old : Tfhd) : RoundTrip b.writeData (Tfhd.readData old)
    { toFullBox := b.toFullBox
      track_id := b.track_id
      base_data_offset := if b.checkFlag 0x1#32 then b.base_data_offset else old.base_data_offset
      sample_description_index :=
        if b.checkFlag 0x2#32 then b.sample_description_index else old.sample_description_index
      default_sample_duration :=
        if b.checkFlag 0x8#32 then b.default_sample_duration else old.default_sample_duration
      default_sample_size := if b.checkFlag 0x10#32 then b.default_sample_size else old.default_sample_size
      default_sample_flags := if b.checkFlag 0x20#32 then b.default_sample_flags else old.default_sample_flags } :=
  roundTrip_of (Tfhd.write_eq b) (Tfhd.size_eq b) (fun d rest => Tfhd.read_eq b old d rest)

/-- **C20** `trun`, every combination of flags; entry fields that the flags do not select are zero after reading. -/
theorem C20_trun (b old : Trun) (hn : b.entries.length < 2 ^ 32)
    (he : ∀ e ∈ b.entries, (-(2 ^ 31) ≤ e.sample_composition_time_offset.toInt ∧
        e.sample_composition_time_offset.toInt < 2 ^ 31) ∧
      (b.checkFlag 0x100#32 = false → e.sample_duration = 0) ∧ (b.checkFlag 0x200#32 = false → e.sample_size = 0) ∧
      (b.checkFlag 0x400#32 = false → e.sample_flags = 0) ∧
      (b.checkFlag 0x800#32 = false → e.sample_composition_time_offset = 0))
    (h0 : b.checkFlag 0x1#32 = false → b.data_offset = old.data_offset)
    (h1 : b.checkFlag 0x4#32 = false → b.first_sample_flags = old.first_sample_flags) :
    RoundTrip b.writeData (Trun.readData old) b := by
  refine roundTrip_of (Trun.write_eq b) (Trun.size_eq b) (fun d rest => ?_)
  rw [Trun.read_eq b old d rest hn he]
  have : b.stored old = b := by
    obtain ⟨fb, a, c, e⟩ := b
    simp only [Trun.stored, Trun.mk.injEq, true_and, and_true]
    simp only at h0 h1
    refine ⟨?_, ?_⟩ <;> split <;> simp_all
  rw [this]

example : ∃ b old : Trun, b.entries.length < 2 ^ 32 ∧ b.entries ≠ [] ∧ b.checkFlag 0x100#32 = true ∧
    b.checkFlag 0x1#32 = true ∧ (b.checkFlag 0x200#32 = false) ∧
    (∀ e ∈ b.entries, (-(2 ^ 31) ≤ e.sample_composition_time_offset.toInt ∧
        e.sample_composition_time_offset.toInt < 2 ^ 31) ∧
      (b.checkFlag 0x100#32 = false → e.sample_duration = 0) ∧ (b.checkFlag 0x200#32 = false → e.sample_size = 0) ∧
      (b.checkFlag 0x400#32 = false → e.sample_flags = 0) ∧
      (b.checkFlag 0x800#32 = false → e.sample_composition_time_offset = 0)) ∧
    (b.checkFlag 0x4#32 = false → b.first_sample_flags = old.first_sample_flags) :=
  ⟨⟨⟨0, 0, 0x9, 0x01⟩, 200, 0, [⟨512, 0, 0, -5⟩]⟩, ⟨⟨0, 0, 0, 0⟩, 0, 0, []⟩, by decide⟩

/-- **C20** `tfra`, every version and every combination of number widths from one to four bytes. -/
theorem C20_tfra (b : Tfra)
    (hl : b.length_size_of_traf_num.toNat < 4 ∧ b.length_size_of_trun_num.toNat < 4 ∧
      b.length_size_of_sample_num.toNat < 4)
    (hr : b.reserved.toNat < 2 ^ 26) (hn : b.entries.length < 2 ^ 32)
    (he : ∀ e ∈ b.entries,
      (b.version = 0#8 → e.time.toNat < 2 ^ 32) ∧ (b.version = 0#8 → e.moof_offset.toNat < 2 ^ 32) ∧
      e.traf_number.toNat < 2 ^ ((b.length_size_of_traf_num.toNat + 1) * 8) ∧
      e.trun_number.toNat < 2 ^ ((b.length_size_of_trun_num.toNat + 1) * 8) ∧
      e.sample_number.toNat < 2 ^ ((b.length_size_of_sample_num.toNat + 1) * 8)) :
    RoundTrip b.writeData Tfra.readData b :=
  roundTrip_of (Tfra.write_eq b hl) (Tfra.size_eq b) (fun d rest => Tfra.read_eq b hl d rest hr hn he)

example : ∃ b : Tfra, b.length_size_of_traf_num = 1 ∧ b.entries ≠ [] ∧ ∀ e ∈ b.entries,
      (b.version = 0#8 → e.time.toNat < 2 ^ 32) ∧ (b.version = 0#8 → e.moof_offset.toNat < 2 ^ 32) ∧
      e.traf_number.toNat < 2 ^ ((b.length_size_of_traf_num.toNat + 1) * 8) ∧
      e.trun_number.toNat < 2 ^ ((b.length_size_of_trun_num.toNat + 1) * 8) ∧
      e.sample_number.toNat < 2 ^ ((b.length_size_of_sample_num.toNat + 1) * 8) :=
  ⟨⟨⟨1, 0, 0, 0⟩, 1, 0, 1, 0, 3, [⟨2 ^ 40, 77, 300, 200, 70000⟩]⟩, by decide⟩

end Mp4
