import Verif.Spec.LayoutSampleEntries

/-! # Write/size/read facts of the sample entries -/

namespace Mp4
open R

theorem VisualSampleEntry.write_eq (b : VisualSampleEntry) :
    b.writeData = ⟨Layout.visualSampleEntry b, .ok (8 * b.getDataSize)⟩ := by
  simp [VisualSampleEntry.writeData, writeReservedAndIndex, Layout.visualSampleEntry, VisualSampleEntry.getDataSize, wr]
theorem VisualSampleEntry.size_eq (b : VisualSampleEntry) :
    (Layout.visualSampleEntry b).length = 8 * b.getDataSize := by
  simp only [Layout.visualSampleEntry, VisualSampleEntry.getDataSize, ll]
theorem VisualSampleEntry.read_eq (b : VisualSampleEntry) (d : List Byte) (rest : List Bool) :
    (VisualSampleEntry.readData b.type).run d (Layout.visualSampleEntry b ++ rest)
      = .ok ((8 * b.getDataSize, b), rest) := by
  simp only [VisualSampleEntry.readData, readReservedAndIndex, Layout.visualSampleEntry, rd, Nat.reduceLT,
    Nat.reduceLeDiff]
  simp [VisualSampleEntry.getDataSize]

theorem AudioSampleEntry.write_eq (b : AudioSampleEntry) :
    b.writeData = ⟨Layout.audioSampleEntry b, .ok (8 * b.getDataSize)⟩ := by
  cases h : b.is_quick_time_compatible <;>
  simp [AudioSampleEntry.writeData, writeReservedAndIndex, Layout.audioSampleEntry, AudioSampleEntry.getDataSize, wr, h,
    Nat.mul_add]
theorem AudioSampleEntry.size_eq (b : AudioSampleEntry) :
    (Layout.audioSampleEntry b).length = 8 * b.getDataSize := by
  simp only [Layout.audioSampleEntry, AudioSampleEntry.getDataSize, ll]
  cases b.is_quick_time_compatible <;> simp only [Bool.not_true, Bool.not_false, Bool.false_eq_true, ↓reduceIte] <;> omega

/-- Entries without QuickTime extension whose version is 0 or whose type is `Opus`: anything (child boxes) may follow. -/
theorem AudioSampleEntry.read_plain (b old : AudioSampleEntry) (ho : old.under_wave = false)
    (hq : b.is_quick_time_compatible = false) (hv : old.type = fourcc "Opus" ∨ b.entry_version = 0)
    (d : List Byte) (rest : List Bool) :
    (AudioSampleEntry.readData old).run d (Layout.audioSampleEntry b ++ rest)
      = .ok ((8 * b.getDataSize, AudioSampleEntry.plain b old), rest) := by
  simp only [AudioSampleEntry.readData, readReservedAndIndex, Layout.audioSampleEntry, ho, hq, onlyIf,
    Bool.false_eq_true, ↓reduceIte, rd, Nat.reduceLT, Nat.reduceLeDiff, List.append_nil, hv, List.nil_append]
  simp [AudioSampleEntry.getDataSize, hq, AudioSampleEntry.plain, ho]

/-- Entries without QuickTime extension at the end of the box, any version. -/
theorem AudioSampleEntry.read_plain_end (b old : AudioSampleEntry) (ho : old.under_wave = false)
    (hq : b.is_quick_time_compatible = false) (d : List Byte) :
    (AudioSampleEntry.readData old).run d (Layout.audioSampleEntry b)
      = .ok ((8 * b.getDataSize, AudioSampleEntry.plain b old), []) := by
  simp only [AudioSampleEntry.readData, readReservedAndIndex, Layout.audioSampleEntry, ho, hq, onlyIf,
    Bool.false_eq_true, ↓reduceIte, rd, Nat.reduceLT, Nat.reduceLeDiff, List.append_nil]
  split <;>
  simp [AudioSampleEntry.getDataSize, hq, AudioSampleEntry.plain, rd, ho]

/-- Version 1 and 2 QuickTime entries: the extension has its fixed length and child boxes may follow. -/
theorem AudioSampleEntry.read_qt (b old : AudioSampleEntry) (ho : old.under_wave = false)
    (hq : b.is_quick_time_compatible = true) (hv : old.type ≠ fourcc "Opus")
    (hl : b.entry_version = 1 ∧ b.quick_time_data.length = 16 ∨ b.entry_version = 2 ∧ b.quick_time_data.length = 36)
    (d : List Byte) (rest : List Bool) :
    (AudioSampleEntry.readData old).run d (Layout.audioSampleEntry b ++ rest)
      = .ok ((8 * b.getDataSize, { b with type := old.type, under_wave := false }), rest) := by
  simp only [AudioSampleEntry.readData, readReservedAndIndex, Layout.audioSampleEntry, ho, hq, onlyIf,
    Bool.false_eq_true, ↓reduceIte, rd, Nat.reduceLT, Nat.reduceLeDiff]
  rcases hl with ⟨h1, h2⟩ | ⟨h1, h2⟩
  all_goals
    rw [if_neg (by simp [hv, h1])]
    simp only [rd, ll, h2]
    rw [if_neg (by omega)]
    simp only [AudioSampleEntry.getLengthOfQuickTimeData, h1]
  · simp only [↓reduceIte]
    rw [rd_vector _ _ _ d rest h2.symm (by decide) (by decide)]
    simp [AudioSampleEntry.getDataSize, hq, Nat.mul_add, h2, ho, ← h1, rd]
  · simp only [↓reduceIte, show ((2 : BitVec 16) = 1) = False by simp]
    rw [rd_vector _ _ _ d rest h2.symm (by decide) (by decide)]
    simp [AudioSampleEntry.getDataSize, hq, Nat.mul_add, h2, ho, ← h1, rd]

/-- QuickTime entries of other versions take everything up to the end of the box. -/
theorem AudioSampleEntry.read_qt_end (b old : AudioSampleEntry) (ho : old.under_wave = false)
    (hq : b.is_quick_time_compatible = true) (hv : old.type ≠ fourcc "Opus") (h0 : b.entry_version ≠ 0)
    (h1 : b.entry_version ≠ 1) (h2 : b.entry_version ≠ 2) (hl : b.quick_time_data ≠ []) (d : List Byte) :
    (AudioSampleEntry.readData old).run d (Layout.audioSampleEntry b)
      = .ok ((8 * b.getDataSize, { b with type := old.type, under_wave := false }), []) := by
  have hp := List.length_pos_iff.mpr hl
  simp only [AudioSampleEntry.readData, readReservedAndIndex, Layout.audioSampleEntry, ho, hq, onlyIf,
    Bool.false_eq_true, ↓reduceIte, rd, Nat.reduceLT, Nat.reduceLeDiff]
  rw [if_neg (fun h => h.elim hv h0)]
  simp only [rd, ll]
  rw [if_neg (by omega)]
  simp only [AudioSampleEntry.getLengthOfQuickTimeData, h1, h2, ↓reduceIte]
  rw [rd_vector_end _ _ _ d (by omega) (by decide) (by decide)]
  simp [AudioSampleEntry.getDataSize, hq, Nat.mul_add, ho, rd]

/-- Below a `wave` box the whole payload is kept as opaque data. -/
theorem AudioSampleEntry.read_wave (old : AudioSampleEntry) (ho : old.under_wave = true) (payload d : List Byte) :
    (AudioSampleEntry.readData old).run d (payload.flatMap bits)
      = .ok ((8 * payload.length, { old with quick_time_data := payload }), []) := by
  simp only [AudioSampleEntry.readData, ho, ↓reduceIte, rd, ll]
  rw [rd_vector_end _ _ _ d (by omega) (by decide) (by decide)]
  simp [rd]

end Mp4
