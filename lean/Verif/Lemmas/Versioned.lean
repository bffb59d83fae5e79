import Verif.Spec.LayoutVersioned

/-! # Write/size/read facts of the versioned boxes -/

namespace Mp4
open R

@[wr] theorem write_time (fb : FullBox) (v : BitVec 64) :
    write_uint v (vw fb) = ⟨Layout.time fb v, .ok (vw fb)⟩ := by
  unfold vw Layout.time
  split <;> simp [wr]

@[wr] theorem write_stime (fb : FullBox) (v : BitVec 64) :
    write_int v (vw fb) = ⟨Layout.stime fb v, .ok (vw fb)⟩ := by
  unfold vw Layout.stime
  split <;> simp [wr]

@[ll] theorem time_length (fb : FullBox) (v : BitVec 64) : (Layout.time fb v).length = vw fb := by
  unfold vw Layout.time
  split <;> simp [ll]

@[ll] theorem stime_length (fb : FullBox) (v : BitVec 64) : (Layout.stime fb v).length = vw fb := by
  unfold vw Layout.stime
  split <;> simp [ll]

@[rd] theorem rd_time {β : Type} (fb : FullBox) (v : BitVec 64) (f : Nat × BitVec 64 → R β) (d : List Byte)
    (rest : List Bool) (h : TimeFits fb v) :
    ((read_uint 64 (vw fb)).bind f).run d (Layout.time fb v ++ rest) = (f (vw fb, v)).run d rest := by
  unfold vw Layout.time
  split
  · next hv => exact rd_ubits 64 32 v f d rest (by decide) (by decide) (h hv)
  · exact rd_uint 64 v f d rest (by decide) (by decide)

@[rd] theorem rd_stime {β : Type} (fb : FullBox) (v : BitVec 64) (f : Nat × BitVec 64 → R β) (d : List Byte)
    (rest : List Bool) (h : STimeFits fb v) :
    ((read_int 64 (vw fb)).bind f).run d (Layout.stime fb v ++ rest) = (f (vw fb, v)).run d rest := by
  unfold vw Layout.stime
  split
  · next hv => exact rd_sbits 64 32 v f d rest (by decide) (by decide) (by decide) (h hv)
  · exact rd_int 64 v f d rest (by decide) (by decide)

theorem vw_cases (fb : FullBox) : (fb.version = 0#8 ∧ vw fb = 32) ∨ (fb.version ≠ 0#8 ∧ vw fb = 64) := by
  unfold vw; split <;> simp_all

theorem Mvhd.write_eq (b : Mvhd) : b.writeData = ⟨Layout.mvhd b, .ok (8 * b.getDataSize)⟩ := by
  rcases vw_cases b.toFullBox with ⟨h, h'⟩ | ⟨h, h'⟩ <;>
  simp [Mvhd.writeData, Layout.mvhd, Mvhd.getDataSize, wr, h] <;> omega
theorem Mvhd.size_eq (b : Mvhd) : (Layout.mvhd b).length = 8 * b.getDataSize := by
  rcases vw_cases b.toFullBox with ⟨h, h'⟩ | ⟨h, h'⟩ <;>
  simp [Layout.mvhd, Mvhd.getDataSize, ll, h, h']
theorem Mvhd.read_eq (b : Mvhd) (d : List Byte) (rest : List Bool) (h0 : TimeFits b.toFullBox b.creation_time)
    (h1 : TimeFits b.toFullBox b.modification_time) (h2 : TimeFits b.toFullBox b.duration) :
    Mvhd.readData.run d (Layout.mvhd b ++ rest) = .ok ((8 * b.getDataSize, b), rest) := by
  rcases vw_cases b.toFullBox with ⟨h, h'⟩ | ⟨h, h'⟩ <;>
  simp [Mvhd.readData, Layout.mvhd, Mvhd.getDataSize, rd, h0, h1, h2, h] <;> omega

theorem Tkhd.write_eq (b : Tkhd) : b.writeData = ⟨Layout.tkhd b, .ok (8 * b.getDataSize)⟩ := by
  rcases vw_cases b.toFullBox with ⟨h, h'⟩ | ⟨h, h'⟩ <;>
  simp [Tkhd.writeData, Layout.tkhd, Tkhd.getDataSize, wr, h] <;> omega
theorem Tkhd.size_eq (b : Tkhd) : (Layout.tkhd b).length = 8 * b.getDataSize := by
  rcases vw_cases b.toFullBox with ⟨h, h'⟩ | ⟨h, h'⟩ <;>
  simp [Layout.tkhd, Tkhd.getDataSize, ll, h, h']
theorem Tkhd.read_eq (b : Tkhd) (d : List Byte) (rest : List Bool) (h0 : TimeFits b.toFullBox b.creation_time)
    (h1 : TimeFits b.toFullBox b.modification_time) (h2 : TimeFits b.toFullBox b.duration) :
    Tkhd.readData.run d (Layout.tkhd b ++ rest) = .ok ((8 * b.getDataSize, b), rest) := by
  rcases vw_cases b.toFullBox with ⟨h, h'⟩ | ⟨h, h'⟩ <;>
  simp [Tkhd.readData, Layout.tkhd, Tkhd.getDataSize, rd, h0, h1, h2, h] <;> omega

theorem Mehd.write_eq (b : Mehd) : b.writeData = ⟨Layout.mehd b, .ok (8 * b.getDataSize)⟩ := by
  rcases vw_cases b.toFullBox with ⟨h, h'⟩ | ⟨h, h'⟩ <;>
  simp [Mehd.writeData, Layout.mehd, Mehd.getDataSize, wr, h] <;> omega
theorem Mehd.size_eq (b : Mehd) : (Layout.mehd b).length = 8 * b.getDataSize := by
  rcases vw_cases b.toFullBox with ⟨h, h'⟩ | ⟨h, h'⟩ <;>
  simp [Layout.mehd, Mehd.getDataSize, ll, h, h']
theorem Mehd.read_eq (b : Mehd) (d : List Byte) (rest : List Bool)
    (h0 : TimeFits b.toFullBox b.fragment_duration) :
    Mehd.readData.run d (Layout.mehd b ++ rest) = .ok ((8 * b.getDataSize, b), rest) := by
  rcases vw_cases b.toFullBox with ⟨h, h'⟩ | ⟨h, h'⟩ <;>
  simp [Mehd.readData, Layout.mehd, Mehd.getDataSize, rd, h0, h] <;> omega

theorem Tfdt.write_eq (b : Tfdt) : b.writeData = ⟨Layout.tfdt b, .ok (8 * b.getDataSize)⟩ := by
  rcases vw_cases b.toFullBox with ⟨h, h'⟩ | ⟨h, h'⟩ <;>
  simp [Tfdt.writeData, Layout.tfdt, Tfdt.getDataSize, wr, h] <;> omega
theorem Tfdt.size_eq (b : Tfdt) : (Layout.tfdt b).length = 8 * b.getDataSize := by
  rcases vw_cases b.toFullBox with ⟨h, h'⟩ | ⟨h, h'⟩ <;>
  simp [Layout.tfdt, Tfdt.getDataSize, ll, h, h']
theorem Tfdt.read_eq (b : Tfdt) (d : List Byte) (rest : List Bool)
    (h0 : TimeFits b.toFullBox b.base_media_decode_time) :
    Tfdt.readData.run d (Layout.tfdt b ++ rest) = .ok ((8 * b.getDataSize, b), rest) := by
  rcases vw_cases b.toFullBox with ⟨h, h'⟩ | ⟨h, h'⟩ <;>
  simp [Tfdt.readData, Layout.tfdt, Tfdt.getDataSize, rd, h0, h] <;> omega

theorem encode_language_toNat (l : Arr3) (h : LangOk l) : (encode_language l).toNat
      = (l.b0.toNat - 0x60) * 1024 + (l.b1.toNat - 0x60) * 32 + (l.b2.toNat - 0x60) := by
  obtain ⟨⟨_, _⟩, ⟨_, _⟩, _, _⟩ := h
  simp only [encode_language, BitVec.toNat_ofInt]
  omega

theorem decode_encode_language (l : Arr3) (h : LangOk l) : decode_language (encode_language l) = l := by
  have hv := encode_language_toNat l h
  obtain ⟨⟨_, _⟩, ⟨_, _⟩, _, _⟩ := h
  obtain ⟨a, b, c⟩ := l
  have hmask : ∀ x : BitVec 16, (x &&& 0x1f#16).toNat = x.toNat % 32 := by
    intro x
    rw [BitVec.toNat_and, show (0x1f#16).toNat = 2 ^ 5 - 1 from rfl, Nat.and_two_pow_sub_one_eq_mod]
  simp only at *
  simp only [decode_language, Arr3.mk.injEq]
  refine ⟨?_, ?_, ?_⟩ <;> apply BitVec.eq_of_toNat_eq <;>
  simp only [BitVec.toNat_add, BitVec.toNat_setWidth, hmask, BitVec.toNat_ushiftRight,
    Nat.shiftRight_eq_div_pow, hv, BitVec.toNat_ofNat] <;> omega

theorem language_layout (l : Arr3) (h : LangOk l) : ubits 15 (encode_language l) = Layout.language l := by
  have hv := encode_language_toNat l h
  obtain ⟨⟨_, _⟩, ⟨_, _⟩, _, _⟩ := h
  have e : ∀ x : Byte, 0x60 ≤ x.toNat → (x - 0x60#8).toNat = x.toNat - 0x60 := by
    intro x hx
    rw [BitVec.toNat_sub_of_le (by rw [BitVec.le_def]; exact hx)]; rfl
  rw [Layout.language, ubits, ubits, ubits, ubits, hv, e _ ‹_›, e _ ‹_›, e _ ‹_›,
    show (15 : Nat) = (5 + 5) + 5 from rfl, natBits_add, natBits_add]
  have k : ∀ x y : Nat, x % 32 = y % 32 → natBits 5 x = natBits 5 y := by
    intro x y hxy
    rw [← natBits_mod 5 x, ← natBits_mod 5 y, show 2 ^ 5 = 32 from rfl, hxy]
  congr 1
  · congr 1 <;> apply k <;> simp only [Nat.shiftRight_eq_div_pow] <;> omega
  · apply k; omega

theorem Mdhd.write_raw (b : Mdhd) : b.writeData =
    ⟨fbits b.toFullBox ++ Layout.time b.toFullBox b.creation_time ++
      Layout.time b.toFullBox b.modification_time ++ bits b.timescale ++ Layout.time b.toFullBox b.duration ++
      bbit b.pad ++ ubits 15 (encode_language b.language) ++ bits b.pre_defined, .ok (8 * b.getDataSize)⟩ := by
  rcases vw_cases b.toFullBox with ⟨h, h'⟩ | ⟨h, h'⟩ <;>
  simp [Mdhd.writeData, Mdhd.getDataSize, wr, h] <;> omega
theorem Mdhd.write_eq (b : Mdhd) (hl : LangOk b.language) :
    b.writeData = ⟨Layout.mdhd b, .ok (8 * b.getDataSize)⟩ := by
  rw [Mdhd.write_raw, language_layout _ hl]; rfl
theorem Mdhd.size_raw (b : Mdhd) : b.writeData.out.length = 8 * b.getDataSize := by
  rw [Mdhd.write_raw]
  rcases vw_cases b.toFullBox with ⟨h, h'⟩ | ⟨h, h'⟩ <;>
  simp [Mdhd.getDataSize, ll, h, h']
theorem Mdhd.read_eq (b : Mdhd) (d : List Byte) (rest : List Bool) (h0 : TimeFits b.toFullBox b.creation_time)
    (h1 : TimeFits b.toFullBox b.modification_time) (h2 : TimeFits b.toFullBox b.duration)
    (hl : LangOk b.language) :
    Mdhd.readData.run d (Layout.mdhd b ++ rest) = .ok ((8 * b.getDataSize, b), rest) := by
  have hlt : (encode_language b.language).toNat < 2 ^ 15 := by
    rw [encode_language_toNat _ hl]
    obtain ⟨⟨_, _⟩, ⟨_, _⟩, _, _⟩ := hl; omega
  rcases vw_cases b.toFullBox with ⟨h, h'⟩ | ⟨h, h'⟩ <;>
  simp [Mdhd.readData, Layout.mdhd, ← language_layout _ hl, Mdhd.getDataSize, rd, h0, h1, h2, hlt,
    decode_encode_language _ hl, h] <;> omega

theorem ElstEntry.write_eq (fb : FullBox) (e : ElstEntry) :
    ElstEntry.writeData (vw fb) e = ⟨Layout.elstEntry fb e, .ok (vw fb + vw fb + 32)⟩ := by
  simp [ElstEntry.writeData, Layout.elstEntry, wr]
theorem ElstEntry.read_eq (fb : FullBox) (e : ElstEntry) (d : List Byte) (rest : List Bool) (h : e.Fits fb) :
    (ElstEntry.readData (vw fb)).run d (Layout.elstEntry fb e ++ rest) = .ok ((vw fb + vw fb + 32, e), rest) := by
  simp [ElstEntry.readData, Layout.elstEntry, rd, h.1, h.2]

theorem Elst.write_eq (b : Elst) : b.writeData = ⟨Layout.elst b, .ok (8 * b.getDataSize)⟩ := by
  have := wr_list (ElstEntry.writeData (vw b.toFullBox)) (Layout.elstEntry b.toFullBox) _ b.entries
    (fun e _ => ElstEntry.write_eq _ e)
  rcases vw_cases b.toFullBox with ⟨h, h'⟩ | ⟨h, h'⟩ <;>
  · simp [Elst.writeData, Layout.elst, Elst.getDataSize, wr, this]
    simp +arith [h, h']
theorem Elst.size_eq (b : Elst) : (Layout.elst b).length = 8 * b.getDataSize := by
  have := ll_list (Layout.elstEntry b.toFullBox) (vw b.toFullBox + vw b.toFullBox + 32) b.entries
    (fun e _ => by simp [Layout.elstEntry, ll]; omega)
  rcases vw_cases b.toFullBox with ⟨h, h'⟩ | ⟨h, h'⟩ <;>
  · simp only [Layout.elst, List.length_append, this, Elst.getDataSize, h, h', ll]
    simp; omega
theorem Elst.read_eq (b : Elst) (d : List Byte) (rest : List Bool) (hn : b.entries.length < 2 ^ 32)
    (he : ∀ e ∈ b.entries, e.Fits b.toFullBox) :
    Elst.readData.run d (Layout.elst b ++ rest) = .ok ((8 * b.getDataSize, b), rest) := by
  simp only [Elst.readData, Layout.elst, rd, Nat.reduceLT, Nat.reduceLeDiff]
  rw [rd_list _ (Layout.elstEntry b.toFullBox) _ b.entries _ _ d rest (by simp; omega)
    (fun e h r => ElstEntry.read_eq _ e d r (he e h))]
  rcases vw_cases b.toFullBox with ⟨h, h'⟩ | ⟨h, h'⟩ <;>
  · simp only [run_ret, Elst.getDataSize, h, h']
    simp; omega

theorem SidxReference.write_eq (e : SidxReference) : e.writeData = ⟨Layout.sidxReference e, .ok 96⟩ := by
  simp [SidxReference.writeData, Layout.sidxReference, wr]
theorem SidxReference.read_eq (e : SidxReference) (d : List Byte) (rest : List Bool) (h : e.Fits) :
    SidxReference.readData.run d (Layout.sidxReference e ++ rest) = .ok ((96, e), rest) := by
  obtain ⟨h0, h1, h2⟩ := h
  simp only [Nat.reducePow] at h0 h1 h2
  simp [SidxReference.readData, Layout.sidxReference, rd, h0, h1, h2]

theorem Sidx.write_eq (b : Sidx) : b.writeData = ⟨Layout.sidx b, .ok (8 * b.getDataSize)⟩ := by
  have := wr_list SidxReference.writeData Layout.sidxReference 96 b.references
    (fun e _ => SidxReference.write_eq e)
  rcases vw_cases b.toFullBox with ⟨h, h'⟩ | ⟨h, h'⟩ <;>
  · simp [Sidx.writeData, Layout.sidx, Sidx.getDataSize, wr, this]
    simp +arith [h, h']
theorem Sidx.size_eq (b : Sidx) : (Layout.sidx b).length = 8 * b.getDataSize := by
  have := ll_list Layout.sidxReference 96 b.references (fun e _ => by simp [Layout.sidxReference, ll])
  rcases vw_cases b.toFullBox with ⟨h, h'⟩ | ⟨h, h'⟩ <;>
  · simp only [Layout.sidx, List.length_append, this, Sidx.getDataSize, h, h', ll]
    simp; omega
theorem Sidx.read_eq (b : Sidx) (d : List Byte) (rest : List Bool) (hn : b.references.length < 2 ^ 16)
    (h0 : TimeFits b.toFullBox b.earliest_presentation_time) (h1 : TimeFits b.toFullBox b.first_offset)
    (he : ∀ e ∈ b.references, e.Fits) :
    Sidx.readData.run d (Layout.sidx b ++ rest) = .ok ((8 * b.getDataSize, b), rest) := by
  simp only [Sidx.readData, Layout.sidx, rd, Nat.reduceLT, Nat.reduceLeDiff, h0, h1]
  rw [rd_list _ Layout.sidxReference _ b.references _ _ d rest (by simp; omega)
    (fun e h r => SidxReference.read_eq e d r (he e h))]
  rcases vw_cases b.toFullBox with ⟨h, h'⟩ | ⟨h, h'⟩ <;>
  · simp only [run_ret, Sidx.getDataSize, h, h']
    simp; omega

end Mp4
