import Verif.Spec.LayoutTables

/-! # Write/size/read facts of the sample tables -/

namespace Mp4
open R

@[ll] theorem flatMap_bits_len {w : Nat} (l : List (BitVec w)) : (l.flatMap bits).length = w * l.length :=
  flatMap_bits_length l

theorem SttsEntry.write_eq (e : SttsEntry) : e.writeData = ⟨Layout.sttsEntry e, .ok 64⟩ := by
  simp [SttsEntry.writeData, Layout.sttsEntry, wr]
theorem SttsEntry.read_eq (e : SttsEntry) (d : List Byte) (rest : List Bool) :
    SttsEntry.readData.run d (Layout.sttsEntry e ++ rest) = .ok ((64, e), rest) := by
  simp [SttsEntry.readData, Layout.sttsEntry, rd]
theorem Stts.write_eq (b : Stts) : b.writeData = ⟨Layout.stts b, .ok (8 * b.getDataSize)⟩ := by
  have := wr_list SttsEntry.writeData Layout.sttsEntry 64 b.entries (fun e _ => SttsEntry.write_eq e)
  simp +arith [Stts.writeData, Layout.stts, Stts.getDataSize, wr, this]
theorem Stts.size_eq (b : Stts) : (Layout.stts b).length = 8 * b.getDataSize := by
  have := ll_list Layout.sttsEntry 64 b.entries (fun e _ => by simp [Layout.sttsEntry, ll])
  simp only [Layout.stts, List.length_append, this, Stts.getDataSize, ll]
  omega
theorem Stts.read_eq (b : Stts) (d : List Byte) (rest : List Bool) (hn : b.entries.length < 2 ^ 32) :
    Stts.readData.run d (Layout.stts b ++ rest) = .ok ((8 * b.getDataSize, b), rest) := by
  simp only [Stts.readData, Layout.stts, rd, Nat.reduceLT, Nat.reduceLeDiff]
  rw [rd_list _ Layout.sttsEntry _ b.entries _ _ d rest (by simp; omega)
    (fun e _ r => SttsEntry.read_eq e d r)]
  simp only [run_ret, Stts.getDataSize]
  simp; omega

theorem StscEntry.write_eq (e : StscEntry) : e.writeData = ⟨Layout.stscEntry e, .ok 96⟩ := by
  simp [StscEntry.writeData, Layout.stscEntry, wr]
theorem StscEntry.read_eq (e : StscEntry) (d : List Byte) (rest : List Bool) :
    StscEntry.readData.run d (Layout.stscEntry e ++ rest) = .ok ((96, e), rest) := by
  simp [StscEntry.readData, Layout.stscEntry, rd]
theorem Stsc.write_eq (b : Stsc) : b.writeData = ⟨Layout.stsc b, .ok (8 * b.getDataSize)⟩ := by
  have := wr_list StscEntry.writeData Layout.stscEntry 96 b.entries (fun e _ => StscEntry.write_eq e)
  simp +arith [Stsc.writeData, Layout.stsc, Stsc.getDataSize, wr, this]
theorem Stsc.size_eq (b : Stsc) : (Layout.stsc b).length = 8 * b.getDataSize := by
  have := ll_list Layout.stscEntry 96 b.entries (fun e _ => by simp [Layout.stscEntry, ll])
  simp only [Layout.stsc, List.length_append, this, Stsc.getDataSize, ll]
  omega
theorem Stsc.read_eq (b : Stsc) (d : List Byte) (rest : List Bool) (hn : b.entries.length < 2 ^ 32) :
    Stsc.readData.run d (Layout.stsc b ++ rest) = .ok ((8 * b.getDataSize, b), rest) := by
  simp only [Stsc.readData, Layout.stsc, rd, Nat.reduceLT, Nat.reduceLeDiff]
  rw [rd_list _ Layout.stscEntry _ b.entries _ _ d rest (by simp; omega)
    (fun e _ r => StscEntry.read_eq e d r)]
  simp only [run_ret, Stsc.getDataSize]
  simp; omega

theorem CttsEntry.write_eq (e : CttsEntry) : e.writeData = ⟨Layout.cttsEntry e, .ok 64⟩ := by
  simp [CttsEntry.writeData, Layout.cttsEntry, wr]
theorem CttsEntry.read_eq (e : CttsEntry) (d : List Byte) (rest : List Bool) (h : SFits 32 e.sample_offset) :
    CttsEntry.readData.run d (Layout.cttsEntry e ++ rest) = .ok ((64, e), rest) := by
  simp [CttsEntry.readData, Layout.cttsEntry, rd, h]
theorem Ctts.write_eq (b : Ctts) : b.writeData = ⟨Layout.ctts b, .ok (8 * b.getDataSize)⟩ := by
  have := wr_list CttsEntry.writeData Layout.cttsEntry 64 b.entries (fun e _ => CttsEntry.write_eq e)
  simp +arith [Ctts.writeData, Layout.ctts, Ctts.getDataSize, wr, this]
theorem Ctts.size_eq (b : Ctts) : (Layout.ctts b).length = 8 * b.getDataSize := by
  have := ll_list Layout.cttsEntry 64 b.entries (fun e _ => by simp [Layout.cttsEntry, ll])
  simp only [Layout.ctts, List.length_append, this, Ctts.getDataSize, ll]
  omega
theorem Ctts.read_eq (b : Ctts) (d : List Byte) (rest : List Bool) (hn : b.entries.length < 2 ^ 32)
    (he : ∀ e ∈ b.entries, SFits 32 e.sample_offset) :
    Ctts.readData.run d (Layout.ctts b ++ rest) = .ok ((8 * b.getDataSize, b), rest) := by
  simp only [Ctts.readData, Layout.ctts, rd, Nat.reduceLT, Nat.reduceLeDiff]
  rw [rd_list _ Layout.cttsEntry _ b.entries _ _ d rest (by simp; omega)
    (fun e h r => CttsEntry.read_eq e d r (he e h))]
  simp only [run_ret, Ctts.getDataSize]
  simp; omega

theorem Stco.write_eq (b : Stco) : b.writeData = ⟨Layout.stco b, .ok (8 * b.getDataSize)⟩ := by
  simp +arith [Stco.writeData, Layout.stco, Stco.getDataSize, wr]
theorem Stco.size_eq (b : Stco) : (Layout.stco b).length = 8 * b.getDataSize := by
  simp only [Layout.stco, List.length_append, Stco.getDataSize, ll]
  omega
theorem Stco.read_eq (b : Stco) (d : List Byte) (rest : List Bool) (hn : b.chunk_offsets.length < 2 ^ 32) :
    Stco.readData.run d (Layout.stco b ++ rest) = .ok ((8 * b.getDataSize, b), rest) := by
  simp only [Stco.readData, Layout.stco, rd, Nat.reduceLT, Nat.reduceLeDiff]
  rw [rd_vector b.chunk_offsets _ _ d rest (by simp; omega) (by decide) (by decide)]
  simp only [run_ret, Stco.getDataSize]
  simp; omega

theorem Co64.write_eq (b : Co64) : b.writeData = ⟨Layout.co64 b, .ok (8 * b.getDataSize)⟩ := by
  simp +arith [Co64.writeData, Layout.co64, Co64.getDataSize, wr]
theorem Co64.size_eq (b : Co64) : (Layout.co64 b).length = 8 * b.getDataSize := by
  simp only [Layout.co64, List.length_append, Co64.getDataSize, ll]
  omega
theorem Co64.read_eq (b : Co64) (d : List Byte) (rest : List Bool) (hn : b.chunk_offsets.length < 2 ^ 32) :
    Co64.readData.run d (Layout.co64 b ++ rest) = .ok ((8 * b.getDataSize, b), rest) := by
  simp only [Co64.readData, Layout.co64, rd, Nat.reduceLT, Nat.reduceLeDiff]
  rw [rd_vector b.chunk_offsets _ _ d rest (by simp; omega) (by decide) (by decide)]
  simp only [run_ret, Co64.getDataSize]
  simp; omega

theorem Stss.write_eq (b : Stss) : b.writeData = ⟨Layout.stss b, .ok (8 * b.getDataSize)⟩ := by
  simp +arith [Stss.writeData, Layout.stss, Stss.getDataSize, wr]
theorem Stss.size_eq (b : Stss) : (Layout.stss b).length = 8 * b.getDataSize := by
  simp only [Layout.stss, List.length_append, Stss.getDataSize, ll]
  omega
theorem Stss.read_eq (b : Stss) (d : List Byte) (rest : List Bool) (hn : b.sample_numbers.length < 2 ^ 32) :
    Stss.readData.run d (Layout.stss b ++ rest) = .ok ((8 * b.getDataSize, b), rest) := by
  simp only [Stss.readData, Layout.stss, rd, Nat.reduceLT, Nat.reduceLeDiff]
  rw [rd_vector b.sample_numbers _ _ d rest (by simp; omega) (by decide) (by decide)]
  simp only [run_ret, Stss.getDataSize]
  simp; omega

theorem Stsz.write_eq (b : Stsz) : b.writeData = ⟨Layout.stsz b, .ok (8 * b.getDataSize)⟩ := by
  by_cases h : b.sample_size = 0#32 <;>
  simp +arith [Stsz.writeData, Layout.stsz, Stsz.getDataSize, wr, h]
theorem Stsz.size_eq (b : Stsz) : (Layout.stsz b).length = 8 * b.getDataSize := by
  by_cases h : b.sample_size = 0#32
  · simp only [Layout.stsz, Stsz.getDataSize, ll, h, ↓reduceIte]; omega
  · simp [Layout.stsz, Stsz.getDataSize, ll, h]
theorem Stsz.read_eq (b : Stsz) (d : List Byte) (rest : List Bool) (hn : b.entry_sizes.length < 2 ^ 32)
    (h : b.sample_size = 0#32) :
    Stsz.readData.run d (Layout.stsz b ++ rest) = .ok ((8 * b.getDataSize, b), rest) := by
  obtain ⟨fb, s, l⟩ := b
  simp only at h; subst h
  simp only [Stsz.readData, Layout.stsz, rd, Nat.reduceLT, Nat.reduceLeDiff, ↓reduceIte]
  rw [rd_vector l _ _ d rest (by simp at hn ⊢; omega) (by decide) (by decide)]
  simp only [run_ret, Stsz.getDataSize]
  simp; omega
/-- With a common sample size the number of samples is lost by reading. -/
theorem Stsz.read_const (b : Stsz) (d : List Byte) (rest : List Bool) (h : b.sample_size ≠ 0#32) :
    Stsz.readData.run d (Layout.stsz b ++ rest)
      = .ok ((8 * b.getDataSize, { b with entry_sizes := [] }), rest) := by
  simp [Stsz.readData, Layout.stsz, rd, h, Stsz.getDataSize]

theorem SdtpSample.write_eq (e : SdtpSample) : e.writeData = ⟨Layout.sdtpSample e, .ok 8⟩ := by
  simp [SdtpSample.writeData, Layout.sdtpSample, wr]
theorem SdtpSample.read_eq (e : SdtpSample) (d : List Byte) (rest : List Bool) (h : e.Fits) :
    SdtpSample.readData.run d (Layout.sdtpSample e ++ rest) = .ok ((8, e), rest) := by
  obtain ⟨h0, h1, h2, h3⟩ := h
  simp only [Nat.reducePow] at h0 h1 h2 h3
  simp [SdtpSample.readData, Layout.sdtpSample, rd, h0, h1, h2, h3]
theorem Sdtp.write_eq (b : Sdtp) : b.writeData = ⟨Layout.sdtp b, .ok (8 * b.getDataSize)⟩ := by
  have := wr_list SdtpSample.writeData Layout.sdtpSample 8 b.samples (fun e _ => SdtpSample.write_eq e)
  simp +arith [Sdtp.writeData, Layout.sdtp, Sdtp.getDataSize, wr, this]
theorem sdtpSamples_length (l : List SdtpSample) : (l.flatMap Layout.sdtpSample).length = 8 * l.length :=
  ll_list Layout.sdtpSample 8 l (fun e _ => by simp [Layout.sdtpSample, ll])
theorem Sdtp.size_eq (b : Sdtp) : (Layout.sdtp b).length = 8 * b.getDataSize := by
  simp only [Layout.sdtp, List.length_append, sdtpSamples_length, Sdtp.getDataSize, ll]
  omega
theorem Sdtp.read_eq (b : Sdtp) (d : List Byte) (he : ∀ e ∈ b.samples, e.Fits) :
    Sdtp.readData.run d (Layout.sdtp b) = .ok ((8 * b.getDataSize, b), []) := by
  simp only [Sdtp.readData, Layout.sdtp, rd]
  rw [rd_list_end _ Layout.sdtpSample _ b.samples _ _ d (by rw [sdtpSamples_length]; omega)
    (fun e h r => SdtpSample.read_eq e d r (he e h))]
  simp only [run_ret, Sdtp.getDataSize]
  simp; omega

theorem SbgpEntry.write_eq (e : SbgpEntry) : e.writeData = ⟨Layout.sbgpEntry e, .ok 64⟩ := by
  simp [SbgpEntry.writeData, Layout.sbgpEntry, wr]
theorem SbgpEntry.read_eq (e : SbgpEntry) (d : List Byte) (rest : List Bool) :
    SbgpEntry.readData.run d (Layout.sbgpEntry e ++ rest) = .ok ((64, e), rest) := by
  simp [SbgpEntry.readData, Layout.sbgpEntry, rd]
theorem Sbgp.write_eq (b : Sbgp) : b.writeData = ⟨Layout.sbgp b, .ok (8 * b.getDataSize)⟩ := by
  have := wr_list SbgpEntry.writeData Layout.sbgpEntry 64 b.entries (fun e _ => SbgpEntry.write_eq e)
  by_cases h : b.version = 0#8 <;>
  simp +arith [Sbgp.writeData, Layout.sbgp, Sbgp.getDataSize, wr, this, h]
theorem Sbgp.size_eq (b : Sbgp) : (Layout.sbgp b).length = 8 * b.getDataSize := by
  have := ll_list Layout.sbgpEntry 64 b.entries (fun e _ => by simp [Layout.sbgpEntry, ll])
  by_cases h : b.version = 0#8 <;>
  · simp only [Layout.sbgp, List.length_append, this, Sbgp.getDataSize, ll, h, ↓reduceIte]
    simp [h]; omega
theorem Sbgp.read_eq (b : Sbgp) (old : BitVec 32) (d : List Byte) (rest : List Bool)
    (hn : b.entries.length < 2 ^ 32) :
    (Sbgp.readData old).run d (Layout.sbgp b ++ rest) = .ok ((8 * b.getDataSize,
      { b with grouping_type_parameter := if b.version = 0#8 then old else b.grouping_type_parameter }), rest) := by
  simp only [Sbgp.readData, Layout.sbgp, rd, Nat.reduceLT, Nat.reduceLeDiff]
  rw [rd_list _ Layout.sbgpEntry _ b.entries _ _ d rest (by simp; omega) (fun e _ r => SbgpEntry.read_eq e d r)]
  by_cases hv : b.version = 0#8 <;> simp [run_ret, Sbgp.getDataSize, hv] <;> omega

end Mp4
