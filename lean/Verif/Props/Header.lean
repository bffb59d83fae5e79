import Verif.Model.Header
import Verif.Spec.File
import Verif.Props.Basics

/-!
# C10, C11: box headers
-/

namespace Mp4

theorem uint32_to_be_beBytes (n : Nat) : uint32_to_be (BitVec.ofNat 32 n) = beBytes 4 n := by
  rw [uint32_to_be_eq]
  simp only [beBytes, List.cons.injEq, and_true]
  refine ⟨?_, ?_, ?_, ?_⟩ <;>
    (apply BitVec.eq_of_toNat_eq; simp only [BitVec.toNat_ofNat]; omega)

theorem uint64_to_be_beBytes (n : Nat) : uint64_to_be (BitVec.ofNat 64 n) = beBytes 8 n := by
  rw [uint64_to_be_eq]
  simp only [beBytes, List.cons.injEq, and_true]
  refine ⟨?_, ?_, ?_, ?_, ?_, ?_, ?_, ?_⟩ <;>
    (apply BitVec.eq_of_toNat_eq; simp only [BitVec.toNat_ofNat]; omega)

theorem be_to_uint32_ofNat (n : Nat) :
    (be_to_uint32 (BitVec.ofNat 8 (n / 256 ^ 3)) (BitVec.ofNat 8 (n / 256 ^ 2)) (BitVec.ofNat 8 (n / 256 ^ 1))
      (BitVec.ofNat 8 (n / 256 ^ 0))).toNat = n % 2 ^ 32 := by
  rw [be_to_uint32_toNat]
  simp only [BitVec.toNat_ofNat]
  omega

theorem be_to_uint64_ofNat (n : Nat) :
    (be_to_uint64 (BitVec.ofNat 8 (n / 256 ^ 7)) (BitVec.ofNat 8 (n / 256 ^ 6)) (BitVec.ofNat 8 (n / 256 ^ 5))
      (BitVec.ofNat 8 (n / 256 ^ 4)) (BitVec.ofNat 8 (n / 256 ^ 3)) (BitVec.ofNat 8 (n / 256 ^ 2))
      (BitVec.ofNat 8 (n / 256 ^ 1)) (BitVec.ofNat 8 (n / 256 ^ 0))).toNat = n % 2 ^ 64 := by
  rw [be_to_uint64_toNat]
  simp only [BitVec.toNat_ofNat]
  omega

theorem sub64_eq {a b : Nat} (h : b ≤ a) (ha : a < 2 ^ 64) : sub64 a b = a - b := by
  simp only [sub64]; omega

/-- What `read_box_header` returns for a well-formed header found in a file `d` at `o`, followed by anything. -/
theorem read_box_header_spec (d : List Byte) (o : Nat) (t : BoxType) (hlen : d.length < 2 ^ 64) :
    (∀ size rest, d.drop o = beBytes 4 size ++ BoxType.bytes t ++ rest → 2 ≤ size → size < 2 ^ 32 →
      read_box_header ⟨d, o⟩ = .ok { offset := o, size := size, headerSize := 8, type := t }) ∧
    (∀ size rest, d.drop o = beBytes 4 1 ++ BoxType.bytes t ++ beBytes 8 size ++ rest → size < 2 ^ 64 →
      read_box_header ⟨d, o⟩ = .ok { offset := o, size := size, headerSize := 16, type := t }) ∧
    (∀ rest, d.drop o = beBytes 4 0 ++ BoxType.bytes t ++ rest →
      read_box_header ⟨d, o⟩ =
        .ok { offset := o, size := d.length - o, headerSize := 8, type := t, extendToEof := true }) := by
  refine ⟨?_, ?_, ?_⟩
  · intro size rest h h2 h32
    have hl := congrArg List.length h
    simp [beBytes_length, BoxType.bytes] at hl
    simp only [beBytes, BoxType.bytes, List.cons_append, List.nil_append] at h
    simp only [read_box_header, h, SMALL_HEADER_SIZE, be_to_uint32_ofNat]
    rw [sub64_eq (by omega) hlen, if_neg (by omega), if_neg (by omega), Nat.mod_eq_of_lt h32, if_neg (by omega),
      if_neg (by omega)]
  · intro size rest h h64
    have hl := congrArg List.length h
    simp [beBytes_length, BoxType.bytes] at hl
    rw [beBytes, beBytes, beBytes, beBytes] at h
    simp only [beBytes, BoxType.bytes, List.cons_append, List.nil_append] at h
    simp only [read_box_header, h, SMALL_HEADER_SIZE, LARGE_HEADER_SIZE, be_to_uint32_ofNat, be_to_uint64_ofNat]
    rw [sub64_eq (by omega) hlen, if_neg (by omega), if_neg (by omega), if_neg (by decide), if_pos (by decide),
      if_neg (by omega), Nat.mod_eq_of_lt h64]
  · intro rest h
    have hl := congrArg List.length h
    simp [beBytes_length, BoxType.bytes] at hl
    simp only [beBytes, BoxType.bytes, List.cons_append, List.nil_append] at h
    simp only [read_box_header, h, SMALL_HEADER_SIZE, LARGE_HEADER_SIZE, be_to_uint32_ofNat]
    rw [sub64_eq (by omega) hlen, if_neg (by omega), if_neg (by omega), if_pos (by decide)]

theorem headerBytes_length (h : BoxHeader) :
    h.headerBytes.length =
      if h.extendToEof then 8 else if h.size ≤ UINT32_MAX ∧ h.headerSize ≠ 16 then 8 else 16 := by
  have e : LARGE_HEADER_SIZE = 16 := rfl
  rw [← e]
  by_cases h1 : h.extendToEof
  · simp [BoxHeader.headerBytes, h1, BoxType.bytes]
  by_cases h2 : h.size ≤ UINT32_MAX ∧ h.headerSize ≠ LARGE_HEADER_SIZE
  · simp only [BoxHeader.headerBytes, h1, if_pos h2]
    simp [BoxType.bytes, uint32_to_be]
  · simp only [BoxHeader.headerBytes, h1, if_neg h2]
    simp [BoxType.bytes, uint64_to_be, e]

theorem drop_of_slice {d : List Byte} {o : Nat} {p : List Byte} (h : slice d o p.length = p) :
    d.drop o = p ++ d.drop (o + p.length) := by
  have := List.take_append_drop p.length (d.drop o)
  rw [List.drop_drop] at this
  rw [← this]
  simp only [slice] at h
  rw [h]

/-- A header object that `write` can express: the size field is not one of the escape values, and the header
length is the one the format uses for it.  `len` is the length of the file after the write, which determines the size
of a box that extends to the end of the file. -/
def BoxHeader.Valid (h : BoxHeader) (len : Nat) : Prop :=
  (h.extendToEof = true ∧ h.headerSize = 8 ∧ h.size = len - h.offset) ∨
  (h.extendToEof = false ∧ h.headerSize = 8 ∧ 2 ≤ h.size ∧ h.size < 2 ^ 32) ∨
  (h.extendToEof = false ∧ h.headerSize = 16 ∧ h.size < 2 ^ 64)

/-- **C10.** Writing a header anywhere in any file changes only the header's bytes, and reading a header at the
same offset gives back the same header (type, offset, size, header size and extend-to-EOF mark), which is also what the object
itself holds and reports after the write. -/
theorem C10_header_round_trip (h : BoxHeader) (os : OStream)
    (hlen : (h.write os).2.2.data.length < 2 ^ 64) (hv : h.Valid (h.write os).2.2.data.length) :
    let (ret, h', os') := h.write os
    h' = h ∧ ret = h.size ∧ os'.pos = h.offset + h.headerSize ∧
    Patched os.data os'.data h.offset (slice os'.data h.offset h.headerSize) ∧
    read_box_header ⟨os'.data, h.offset⟩ = .ok h := by
  have hne : h.headerBytes ≠ [] := by
    intro hc; have := congrArg List.length hc
    rw [headerBytes_length] at this
    split at this
    · simp at this
    · split at this <;> simp at this
  have hp := OStream.write_patched (os.seekp h.offset) h.headerBytes hne
  have hhs : h.headerBytes.length = h.headerSize := by
    rw [headerBytes_length]
    rcases hv with ⟨h1, h2, h3⟩ | ⟨h1, h2, h3, h4⟩ | ⟨h1, h2, h3⟩
    · simp [h1, h2]
    · rw [h1, if_neg (by decide), if_pos (by simp [UINT32_MAX, h2]; omega), h2]
    · rw [h1, if_neg (by decide), if_neg (by simp [h2]), h2]
  have hsz : h.size < 2 ^ 64 := by
    rcases hv with ⟨h1, h2, h3⟩ | ⟨h1, h2, h3, h4⟩ | ⟨h1, h2, h3⟩ <;> omega
  have hafter : h.afterWrite = h := by
    simp only [BoxHeader.afterWrite, hhs]
    have : u64 (h.size + sub64 h.headerSize h.headerSize) = h.size := by
      simp only [u64, sub64]
      rcases hv with ⟨h1, h2, h3⟩ | ⟨h1, h2, h3, h4⟩ | ⟨h1, h2, h3⟩ <;> omega
    rw [this]
  simp only [BoxHeader.write, OStream.seekp] at hp hlen hv ⊢
  obtain ⟨hs, hrest⟩ := hp
  refine ⟨hafter, by rw [hafter], by simp [hhs], ?_, ?_⟩
  · rw [← hhs, hs]; exact ⟨hs, hrest⟩
  · have hd := drop_of_slice hs
    have spec := read_box_header_spec _ h.offset h.type hlen
    rcases hv with ⟨h1, h2, h3⟩ | ⟨h1, h2, h3, h4⟩ | ⟨h1, h2, h3⟩
    · have hb : h.headerBytes = beBytes 4 0 ++ BoxType.bytes h.type := by
        rw [BoxHeader.headerBytes, if_pos h1]; rfl
      rw [spec.2.2 _ (hd.trans (congrArg (· ++ _) hb))]
      rw [← h3, ← h1, ← h2]
    · have hb : h.headerBytes = beBytes 4 h.size ++ BoxType.bytes h.type := by
        rw [BoxHeader.headerBytes, if_neg (by simp [h1]),
          if_pos (by simp [UINT32_MAX, LARGE_HEADER_SIZE, h2]; omega), uint32_to_be_beBytes]
      rw [spec.1 _ _ (hd.trans (congrArg (· ++ _) hb)) h3 h4]
      rw [← h1, ← h2]
    · have hb : h.headerBytes = beBytes 4 1 ++ BoxType.bytes h.type ++ beBytes 8 h.size := by
        rw [BoxHeader.headerBytes, if_neg (by simp [h1]), if_neg (by simp [LARGE_HEADER_SIZE, h2]),
          uint64_to_be_beBytes]; rfl
      rw [spec.2.1 _ _ (hd.trans (congrArg (· ++ _) hb)) h3]
      rw [← h1, ← h2]

/-- All three header forms meet the hypotheses (a 5 GB box, a small one, one up to the end of file). -/
example : BoxHeader.Valid { offset := 24, size := 5000000016, headerSize := 16, type := fourcc "mdat" } 40 ∧
    BoxHeader.Valid { offset := 24, size := 100, type := fourcc "moov" } 32 ∧
    BoxHeader.Valid { offset := 24, size := 8, type := fourcc "mdat", extendToEof := true } 32 := by
  refine ⟨?_, ?_, ?_⟩ <;> simp [BoxHeader.Valid]

/-- C10, why `Valid` excludes an 8-byte header with a 64-bit size: the size field written is the size *before* the header grew,
so the box on disk is 8 bytes shorter than the object says. -/
theorem C10_header_stale_size_witness :
    ∃ (h : BoxHeader) (os : OStream), h.extendToEof = false ∧ h.headerSize = 8 ∧
      ∃ g, read_box_header ⟨(h.write os).2.2.data, h.offset⟩ = .ok g ∧
        g.size = h.size ∧ (h.write os).2.1.size = h.size + 8 :=
  ⟨{ offset := 0, size := 2 ^ 32, headerSize := 8, type := ⟨0x6d, 0x64, 0x61, 0x74⟩ }, ⟨[], 0⟩, rfl, rfl,
    { offset := 0, size := 2 ^ 32, headerSize := 16, type := ⟨0x6d, 0x64, 0x61, 0x74⟩ },
    by decide +kernel, by decide +kernel, by decide +kernel⟩

theorem setOffsetAndDataSize_large (h : BoxHeader) (o data : Nat) (hd : data + 16 < 2 ^ 64) (hc : 2 ^ 32 ≤ data + 8) :
    h.setOffsetAndDataSize o data = { h with offset := o, headerSize := 16, size := 16 + data } := by
  have h1 : data > UINT32_MAX - SMALL_HEADER_SIZE := by simp only [UINT32_MAX, SMALL_HEADER_SIZE]; omega
  have hsz : u64 (data + 16) = 16 + data := by simp only [u64]; omega
  simp only [BoxHeader.setOffsetAndDataSize, if_pos h1, LARGE_HEADER_SIZE, hsz]

theorem setOffsetAndDataSize_small (h : BoxHeader) (o data : Nat) (hc : data + 8 < 2 ^ 32) :
    h.setOffsetAndDataSize o data = { h with offset := o, headerSize := 8, size := 8 + data } := by
  have h1 : ¬ data > UINT32_MAX - SMALL_HEADER_SIZE := by simp only [UINT32_MAX, SMALL_HEADER_SIZE]; omega
  have hsz : u64 (data + 8) = 8 + data := by simp only [u64]; omega
  simp only [BoxHeader.setOffsetAndDataSize, if_neg h1]
  simp only [SMALL_HEADER_SIZE, hsz]

/-- **C11.** After `setOffsetAndDataSize(o, data)` the header is 8 bytes exactly when `8 + data` fits 32 bits, 16 bytes otherwise; the size is
header + data; and `write` then puts exactly the standard's header for that size and type at `o`. -/
theorem C11_header_size_choice (h : BoxHeader) (o data : Nat) (os : OStream)
    (hd : data + 16 < 2 ^ 64) (he : h.extendToEof = false) :
    let g := h.setOffsetAndDataSize o data
    (g.headerSize = 8 ↔ data + 8 < 2 ^ 32) ∧ (g.headerSize = 16 ↔ 2 ^ 32 ≤ data + 8) ∧
    g.size = g.headerSize + data ∧ g.getDataSize = data ∧ g.offset = o ∧ g.type = h.type ∧
    g.headerSize = (Spec.boxHeader g.size (BoxType.bytes h.type)).length ∧
    slice (g.write os).2.2.data o g.headerSize = Spec.boxHeader g.size (BoxType.bytes h.type) ∧
    (g.write os).2.1 = g := by
  by_cases hc : 2 ^ 32 ≤ data + 8
  · rw [setOffsetAndDataSize_large h o data hd hc]
    have hspec : Spec.boxHeader (16 + data) (BoxType.bytes h.type)
        = beBytes 4 1 ++ BoxType.bytes h.type ++ beBytes 8 (16 + data) := by
      rw [Spec.boxHeader, if_neg (by omega)]
    have hb : BoxHeader.headerBytes { h with offset := o, headerSize := 16, size := 16 + data } =
        beBytes 4 1 ++ BoxType.bytes h.type ++ beBytes 8 (16 + data) := by
      rw [BoxHeader.headerBytes, if_neg (by simp [he]), if_neg (by simp [LARGE_HEADER_SIZE]), uint64_to_be_beBytes]
      rfl
    refine ⟨by show (16 : Nat) = 8 ↔ _; omega, by show (16 : Nat) = 16 ↔ _; omega, rfl, ?_, rfl, rfl, ?_, ?_, ?_⟩
    · simp only [BoxHeader.getDataSize, sub64]; omega
    · rw [hspec]; simp [beBytes_length, BoxType.bytes]
    · rw [hspec]
      have := OStream.write_slice (os.seekp o) (beBytes 4 1 ++ BoxType.bytes h.type ++ beBytes 8 (16 + data)) (by simp [BoxType.bytes])
      simp only [BoxHeader.write, hb]
      rw [show (16 : Nat) = (beBytes 4 1 ++ BoxType.bytes h.type ++ beBytes 8 (16 + data)).length by
        simp [beBytes_length, BoxType.bytes]]
      simp only [beBytes_length, BoxType.bytes, List.length_append] at this ⊢
      exact this
    · simp only [BoxHeader.write, BoxHeader.afterWrite, hb]
      simp [beBytes_length, BoxType.bytes, u64, sub64]
      omega
  · rw [setOffsetAndDataSize_small h o data (by omega)]
    have hspec : Spec.boxHeader (8 + data) (BoxType.bytes h.type)
        = beBytes 4 (8 + data) ++ BoxType.bytes h.type := by
      rw [Spec.boxHeader, if_pos (by omega)]
    have hb : BoxHeader.headerBytes { h with offset := o, headerSize := 8, size := 8 + data } =
        beBytes 4 (8 + data) ++ BoxType.bytes h.type := by
      rw [BoxHeader.headerBytes, if_neg (by simp [he]), if_pos (by simp [LARGE_HEADER_SIZE, UINT32_MAX]; omega),
        uint32_to_be_beBytes]
    refine ⟨by show (8 : Nat) = 8 ↔ _; omega, by show (8 : Nat) = 16 ↔ _; omega, rfl, ?_, rfl, rfl, ?_, ?_, ?_⟩
    · simp only [BoxHeader.getDataSize, sub64]; omega
    · rw [hspec]; simp [beBytes_length, BoxType.bytes]
    · rw [hspec]
      have := OStream.write_slice (os.seekp o) (beBytes 4 (8 + data) ++ BoxType.bytes h.type) (by simp [BoxType.bytes])
      simp only [BoxHeader.write, hb]
      rw [show (8 : Nat) = (beBytes 4 (8 + data) ++ BoxType.bytes h.type).length by simp [beBytes_length, BoxType.bytes]]
      simp only [beBytes_length, BoxType.bytes, List.length_append] at this ⊢
      exact this
    · simp only [BoxHeader.write, BoxHeader.afterWrite, hb]
      simp [beBytes_length, BoxType.bytes, u64, sub64]
      omega

/-- The two sides of the boundary. -/
example : (({ type := fourcc "mdat" } : BoxHeader).setOffsetAndDataSize 0 (2 ^ 32 - 9)).headerSize = 8 ∧
    (({ type := fourcc "mdat" } : BoxHeader).setOffsetAndDataSize 0 (2 ^ 32 - 8)).headerSize = 16 := by
  decide +kernel

end Mp4
