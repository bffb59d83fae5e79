import Verif.Spec.LayoutCodec

/-! # Write/size/read facts of the codec configuration boxes -/

namespace Mp4
open R

theorem AVCParameterSet.write_eq (n : List Byte) :
    AVCParameterSet.writeData n = ⟨Layout.parameterSet n, .ok (8 * AVCParameterSet.getSize n)⟩ := by
  simp [AVCParameterSet.writeData, Layout.parameterSet, AVCParameterSet.getSize, wr, Nat.mul_add]
theorem AVCParameterSet.size_eq (n : List Byte) :
    (Layout.parameterSet n).length = 8 * AVCParameterSet.getSize n := by
  simp only [Layout.parameterSet, AVCParameterSet.getSize, ll]; omega
theorem AVCParameterSet.read_eq (n : List Byte) (hn : n.length < 2 ^ 16) (d : List Byte) (rest : List Bool) :
    AVCParameterSet.readData.run d (Layout.parameterSet n ++ rest)
      = .ok ((8 * AVCParameterSet.getSize n, n), rest) := by
  simp only [AVCParameterSet.readData, Layout.parameterSet, rd, Nat.reduceLT, Nat.reduceLeDiff]
  rw [rd_vector n _ _ d rest (by simp; omega) (by decide) (by decide)]
  simp [AVCParameterSet.getSize, Nat.mul_add]

theorem pset_write (l : List (List Byte)) : writeList AVCParameterSet.writeData l =
    ⟨l.flatMap Layout.parameterSet, .ok (8 * (l.map AVCParameterSet.getSize).sum)⟩ :=
  wr_listv _ _ _ l (fun x _ => AVCParameterSet.write_eq x)
theorem pset_len (l : List (List Byte)) :
    (l.flatMap Layout.parameterSet).length = 8 * (l.map AVCParameterSet.getSize).sum :=
  ll_listv _ _ l (fun x _ => AVCParameterSet.size_eq x)

theorem AvcC.write_eq (b : AvcC) (h : b.Consistent) :
    b.writeData = ⟨Layout.avcC b, .ok (8 * b.getDataSize)⟩ := by
  by_cases hh : b.high_profile_fields_enabled = true
  · have hp := h hh
    simp [AvcC.writeData, Layout.avcC, Layout.avcCHigh, AvcC.getDataSize, wr, hh, hp, pset_write, onlyIf,
      ubits_ofNat]
    omega
  · simp [AvcC.writeData, Layout.avcC, AvcC.getDataSize, wr, hh, pset_write, onlyIf, ubits_ofNat]
    omega
theorem AvcC.size_eq (b : AvcC) : (Layout.avcC b).length = 8 * b.getDataSize := by
  simp only [Layout.avcC, Layout.avcCHigh, AvcC.getDataSize, ll, pset_len, Nat.reduceLT]
  cases b.high_profile_fields_enabled <;> simp only [Bool.not_true, Bool.not_false, Bool.false_eq_true, ↓reduceIte] <;> omega

/-- Writing an inconsistent configuration fails, after all the base fields have been output. -/
theorem AvcC.write_inconsistent (b : AvcC) (h : b.high_profile_fields_enabled = true)
    (hp : is_avc_high_profile b.profile = false) :
    (∃ e, b.writeData.res = .error e) ∧
      b.writeData.out = Layout.avcC { b with high_profile_fields_enabled := false } := by
  simp [AvcC.writeData, Layout.avcC, wr, h, hp, pset_write, onlyIf, ubits_ofNat, W.throw]

theorem AvcC.read_base (b old : AvcC) (hf : b.Fits) (hh : b.high_profile_fields_enabled = false)
    (hp : is_avc_high_profile b.profile = false) (d : List Byte) (rest : List Bool) :
    (AvcC.readData old).run d (Layout.avcC b ++ rest) = .ok ((8 * b.getDataSize,
      { b with reserved3 := old.reserved3, chroma_format := old.chroma_format, reserved4 := old.reserved4,
               bit_depth_luma_minus8 := old.bit_depth_luma_minus8, reserved5 := old.reserved5,
               bit_depth_chroma_minus8 := old.bit_depth_chroma_minus8,
               sequence_parameter_sets_ext := old.sequence_parameter_sets_ext }), rest) := by
  obtain ⟨h0, h1, h2, h3, h4, h5, h6⟩ := hf
  simp only [AvcC.readData, Layout.avcC, onlyIf, hh, rd, Nat.reduceLT, Nat.reduceLeDiff, h0, h1, h2,
    Bool.false_eq_true, ↓reduceIte, List.append_nil]
  rw [rd_count_narrow 8 5 _ _ d _ (by decide) (by decide) h3]
  simp only [rd]
  rw [rd_listv _ Layout.parameterSet AVCParameterSet.getSize b.sequence_parameter_sets _ _ d _
    (by simp; omega) (fun e hm r => AVCParameterSet.read_eq e (h5 e hm) d r)]
  simp only [rd, Nat.reduceLT, Nat.reduceLeDiff]
  rw [rd_listv _ Layout.parameterSet AVCParameterSet.getSize b.picture_parameter_sets _ _ d _
    (by simp; omega) (fun e hm r => AVCParameterSet.read_eq e (h6 e hm) d r)]
  simp [hp, AvcC.getDataSize, hh]
  omega

/-- With a high profile and the high-profile fields absent, the box must be at the end of its stream. -/
theorem AvcC.read_base_end (b old : AvcC) (hf : b.Fits) (hh : b.high_profile_fields_enabled = false)
    (d : List Byte) :
    (AvcC.readData old).run d (Layout.avcC b) = .ok ((8 * b.getDataSize,
      { b with reserved3 := old.reserved3, chroma_format := old.chroma_format, reserved4 := old.reserved4,
               bit_depth_luma_minus8 := old.bit_depth_luma_minus8, reserved5 := old.reserved5,
               bit_depth_chroma_minus8 := old.bit_depth_chroma_minus8,
               sequence_parameter_sets_ext := old.sequence_parameter_sets_ext }), []) := by
  by_cases hp : is_avc_high_profile b.profile = false
  · have := AvcC.read_base b old hf hh hp d []
    rwa [List.append_nil] at this
  obtain ⟨h0, h1, h2, h3, h4, h5, h6⟩ := hf
  simp only [AvcC.readData, Layout.avcC, onlyIf, hh, rd, Nat.reduceLT, Nat.reduceLeDiff, h0, h1, h2,
    Bool.false_eq_true, ↓reduceIte, List.append_nil]
  rw [rd_count_narrow 8 5 _ _ d _ (by decide) (by decide) h3]
  simp only [rd]
  rw [rd_listv _ Layout.parameterSet AVCParameterSet.getSize b.sequence_parameter_sets _ _ d _
    (by simp; omega) (fun e hm r => AVCParameterSet.read_eq e (h5 e hm) d r)]
  simp only [rd, Nat.reduceLT, Nat.reduceLeDiff]
  rw [rd_listv_end _ Layout.parameterSet AVCParameterSet.getSize b.picture_parameter_sets _ _ d
    (by simp; omega) (fun e hm r => AVCParameterSet.read_eq e (h6 e hm) d r)]
  simp [hp, AvcC.getDataSize, hh, rd]
  omega

theorem AvcC.read_high (b old : AvcC) (hf : b.Fits) (hfh : b.FitsHigh) (hh : b.high_profile_fields_enabled = true)
    (hp : is_avc_high_profile b.profile = true) (d : List Byte) (rest : List Bool) :
    (AvcC.readData old).run d (Layout.avcC b ++ rest) = .ok ((8 * b.getDataSize, b), rest) := by
  obtain ⟨h0, h1, h2, h3, h4, h5, h6⟩ := hf
  obtain ⟨g0, g1, g2, g3, g4, g5, g6, g7⟩ := hfh
  simp only [AvcC.readData, Layout.avcC, Layout.avcCHigh, onlyIf, hh, rd, Nat.reduceLT, Nat.reduceLeDiff,
    h0, h1, h2, ↓reduceIte, List.append_nil]
  rw [rd_count_narrow 8 5 _ _ d _ (by decide) (by decide) h3]
  simp only [rd]
  rw [rd_listv _ Layout.parameterSet AVCParameterSet.getSize b.sequence_parameter_sets _ _ d _
    (by simp; omega) (fun e hm r => AVCParameterSet.read_eq e (h5 e hm) d r)]
  simp only [rd, Nat.reduceLT, Nat.reduceLeDiff]
  rw [rd_listv _ Layout.parameterSet AVCParameterSet.getSize b.picture_parameter_sets _ _ d _
    (by simp; omega) (fun e hm r => AVCParameterSet.read_eq e (h6 e hm) d r)]
  simp only [hp, Bool.not_true, Bool.false_eq_true, ↓reduceIte, rd]
  rw [if_neg (by simp only [ll, Nat.reduceLT]; omega)]
  simp only [rd, Nat.reduceLT, Nat.reduceLeDiff, g0, g1, g2, g3, g4, g5]
  rw [rd_listv _ Layout.parameterSet AVCParameterSet.getSize b.sequence_parameter_sets_ext _ _ d _
    (by simp; omega) (fun e hm r => AVCParameterSet.read_eq e (g7 e hm) d r)]
  simp [AvcC.getDataSize, hh]
  constructor
  · omega
  · cases b; simp_all

theorem Av1C.write_eq (b : Av1C) : b.writeData = ⟨Layout.av1C b, .ok (8 * b.getDataSize)⟩ := by
  simp [Av1C.writeData, Layout.av1C, Av1C.getDataSize, wr, Nat.mul_add]
theorem Av1C.size_eq (b : Av1C) : (Layout.av1C b).length = 8 * b.getDataSize := by
  simp [Layout.av1C, Av1C.getDataSize, ll, Nat.mul_add, - List.length_flatMap]; omega
theorem Av1C.read_eq (b : Av1C) (h : b.Fits) (d : List Byte) :
    Av1C.readData.run d (Layout.av1C b) = .ok ((8 * b.getDataSize, b), []) := by
  obtain ⟨h0, h1, h2, h3, h4, h5, h6, h7, h8, h9⟩ := h
  simp only [Av1C.readData, Layout.av1C, rd, Nat.reduceLT, Nat.reduceLeDiff, h0, h1, h2, h3, h4, h5, h6, h7, h8, h9]
  rw [rd_vector_end b.config_OBUs _ _ d (by rw [flatMap_bits_length]; omega) (by decide) (by decide)]
  simp [Av1C.getDataSize, Nat.mul_add]

theorem VpcC.write_eq (b : VpcC) : b.writeData = ⟨Layout.vpcC b, .ok (8 * b.getDataSize)⟩ := by
  by_cases h : b.version = 0#8 <;>
  simp [VpcC.writeData, Layout.vpcC, VpcC.getDataSize, wr, h, onlyIf, Nat.mul_add]
theorem VpcC.size_eq (b : VpcC) : (Layout.vpcC b).length = 8 * b.getDataSize := by
  by_cases h : b.version = 0#8 <;>
  simp [Layout.vpcC, VpcC.getDataSize, ll, h, onlyIf, Nat.mul_add, - List.length_flatMap] <;> omega
theorem VpcC.read_eq (b : VpcC) (h : b.Fits) (d : List Byte) (rest : List Bool) :
    VpcC.readData.run d (Layout.vpcC b ++ rest) = .ok ((8 * b.getDataSize, b), rest) := by
  obtain ⟨h0, h1, h2, h3, h4⟩ := h
  by_cases h : b.version = 0#8
  · have hx := h4 h
    simp only [VpcC.readData, Layout.vpcC, rd, Nat.reduceLT, Nat.reduceLeDiff, h0, h1, h2, h, ↓reduceIte]
    simp [VpcC.getDataSize, onlyIf, h, ← hx]
  · simp only [VpcC.readData, Layout.vpcC, onlyIf, ne_eq, h, not_false_eq_true, decide_true, rd, Nat.reduceLT,
      Nat.reduceLeDiff, h0, h1, h2, ↓reduceIte]
    rw [rd_vector b.codec_initialization_data _ _ d rest (by simp; omega) (by decide) (by decide)]
    simp [VpcC.getDataSize, h, Nat.mul_add]

theorem DOps.write_eq (b : DOps) : b.writeData = ⟨Layout.dOps b, .ok (8 * b.getDataSize)⟩ := by
  by_cases h : b.channel_mapping_family = 0#8 <;>
  simp [DOps.writeData, DOps.writeTable, Layout.dOps, DOps.getDataSize, wr, h, onlyIf, Nat.mul_add]
theorem DOps.size_eq (b : DOps) : (Layout.dOps b).length = 8 * b.getDataSize := by
  by_cases h : b.channel_mapping_family = 0#8 <;>
  simp [Layout.dOps, DOps.getDataSize, ll, h, onlyIf, Nat.mul_add, - List.length_flatMap] <;> omega
theorem DOps.read_eq (b : DOps) (h : b.Fits) (d : List Byte) (rest : List Bool) :
    DOps.readData.run d (Layout.dOps b ++ rest) = .ok ((8 * b.getDataSize, b), rest) := by
  obtain ⟨h0, h1⟩ := h
  by_cases h : b.channel_mapping_family = 0#8
  · obtain ⟨a, b, c, d, e, f, g, i, j⟩ := b
    simp only at h h1
    obtain ⟨x, y, z⟩ := h1 h
    subst x y z h
    simp [DOps.readData, Layout.dOps, rd, onlyIf, DOps.getDataSize]
  · simp only [DOps.readData, Layout.dOps, onlyIf, ne_eq, h, not_false_eq_true, decide_true, rd, Nat.reduceLT,
      Nat.reduceLeDiff, ↓reduceIte]
    rw [rd_vector b.channel_mapping _ _ d rest (h0 h).symm (by decide) (by decide)]
    simp [DOps.getDataSize, h, Nat.mul_add]

end Mp4
