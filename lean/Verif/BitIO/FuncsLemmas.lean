import Verif.BitIO.Funcs
import Verif.BitIO.ProgLemmas

/-! # Lemmas about the `bitio` functions -/

namespace Mp4

/-! ## Writing -/

theorem writeBitsSel_one (b : Byte) (s : Nat) (h : s ≤ 8) : writeBitsSel [b] s = natBits s b.toNat := by
  rw [writeBitsSel, if_pos (by simpa using h), natBits_eq_range]
  apply List.map_congr_left
  intro k hk
  have hk : k < s := by simpa using hk
  have h1 : (8 - s + k) / 8 = 0 := by omega
  have h2 : (8 - s + k) % 8 = 8 - s + k := by omega
  simp only [List.length_cons, List.length_nil, Nat.zero_add, Nat.one_mul, h1, h2,
    List.getD_cons_zero, BitVec.getLsbD]
  congr 1
  omega

theorem W.writeBits_one (b : Byte) (s : Nat) (h : s ≤ 8) :
    W.writeBits [b] s = ⟨natBits s b.toNat, .ok ()⟩ := by
  rw [W.writeBits, writeBitsSel_one b s h]

@[simp] theorem W.writeBits_byte (b : Byte) : W.writeBits [b] 8 = ⟨bits b, .ok ()⟩ := by
  rw [W.writeBits_one b 8 (Nat.le_refl 8), bits]

theorem writeUintGroup_eq {w : Nat} (val : BitVec w) (size i : Nat) (hi : i < size)
    (hub : size - (i + 8) < promotedWidth w) :
    writeUintGroup val size i =
      ⟨natBits (min 8 (size - i)) (val.toNat >>> (size - (i + 8))), .ok (min 8 (size - i))⟩ := by
  unfold writeUintGroup
  by_cases h1 : size > i + 8
  · rw [if_pos h1, if_neg (by omega)]
    have hm : min 8 (size - i) = 8 := by omega
    rw [hm]
    simp only [W.bind_eq, W.writeBits_byte, W.bind_ok, W.pure_eq, List.append_nil]
    congr 1
    rw [bits, BitVec.toNat_setWidth, natBits_mod]; simp
  · rw [if_neg h1]
    have h0 : size - (i + 8) = 0 := by omega
    rw [h0]
    by_cases h2 : size < i + 8
    · rw [if_pos h2]
      have hm : min 8 (size - i) = size - i := by omega
      rw [hm, W.writeBits_one _ _ (by omega)]
      simp only [W.bind_eq, W.bind_ok, W.pure_eq, List.append_nil]
      rw [BitVec.toNat_setWidth, natBits_mod_le _ _ _ (by omega)]; simp
    · rw [if_neg h2]
      have hm : min 8 (size - i) = 8 := by omega
      rw [hm]
      simp only [W.bind_eq, W.writeBits_byte, W.bind_ok, W.pure_eq, List.append_nil]
      congr 1
      rw [bits, BitVec.toNat_setWidth, natBits_mod]; simp

theorem writeUintGo_eq {w : Nat} (val : BitVec w) (size : Nat) (k i : Nat)
    (hk : k = (size - i + 7) / 8) (hub : size - (i + 8) < promotedWidth w) :
    writeUintGo val size k i = ⟨natBits (size - i) val.toNat, .ok (size - i)⟩ := by
  induction k generalizing i with
  | zero =>
    have : size - i = 0 := by omega
    rw [this]; rfl
  | succ k ih =>
    have hi : i < size := by omega
    rw [writeUintGo, writeUintGroup_eq val size i hi hub, ih (i + 8) (by omega) (by omega)]
    simp only [W.bind_eq, W.bind_ok, W.pure_eq, List.append_nil]
    have hs : size - i = min 8 (size - i) + (size - (i + 8)) := by omega
    congr 1
    · rw [← natBits_add, ← hs]
    · congr 1; omega

theorem write_uint_eq {w : Nat} (val : BitVec w) (size : Nat) (hub : size - 8 < promotedWidth w) :
    write_uint val size = ⟨natBits size val.toNat, .ok size⟩ := by
  have := writeUintGo_eq val size ((size + 7) / 8) 0 (by simp) (by simpa using hub)
  simpa [write_uint] using this

theorem promoted_pos (w : Nat) : w - 8 < promotedWidth w := by unfold promotedWidth; omega

@[simp] theorem write_uint_full {w : Nat} (val : BitVec w) :
    write_uint val = ⟨bits val, .ok w⟩ := by
  rw [write_uint_eq val w (promoted_pos w), bits]

theorem write_uint_le {w : Nat} (val : BitVec w) (size : Nat) (h : size ≤ w) :
    write_uint val size = ⟨natBits size val.toNat, .ok size⟩ :=
  write_uint_eq val size (by have := promoted_pos w; omega)

/-! ### write_int -/

theorem natBits_cons_lt (n x : Nat) (h : x < 2 ^ n) : natBits (n + 1) x = false :: natBits n x := by
  rw [natBits, Nat.testBit_lt_two_pow h]

theorem writeIntGroup_first {w : Nat} (val : BitVec w) (size : Nat) (h0 : 0 < size) (hw : size ≤ w) :
    writeIntGroup val size 0 =
      ⟨val.msb :: natBits (min 8 size - 1) (val.toNat >>> (size - 8)), .ok (min 8 size)⟩ := by
  have hs : (if size < 0 + 8 then size - 0 else 8) = min 8 size := by split <;> omega
  have hub : ¬(size > 0 + 8 ∧ size - (0 + 8) ≥ promotedWidth w) := by
    have := promoted_pos w; omega
  unfold writeIntGroup
  simp only [hs]
  rw [if_neg hub, W.writeBits_one _ _ (by omega)]
  simp only [W.bind_eq, W.bind_ok, W.pure_eq, List.append_nil, ↓reduceIte]
  congr 1
  obtain ⟨m, hm⟩ : ∃ m, min 8 size = m + 1 := ⟨min 8 size - 1, by omega⟩
  have hm8 : m < 8 := by omega
  have hmw : m < w := by omega
  rw [hm]
  simp only [Nat.add_sub_cancel]
  have hshift : (if size > 0 + 8 then val.sshiftRight (size - (0 + 8)) else val)
      = val.sshiftRight (size - 8) := by
    split
    · simp
    · have : size - 8 = 0 := by omega
      simp [this]
  rw [hshift, natBits, natBits_eq_range m, natBits_eq_range m]
  congr 1
  · rw [← BitVec.getLsbD, BitVec.getLsbD_setWidth]
    by_cases hv : val.msb
    · rw [if_pos hv, hv]
      simp [hm8, hmw]
    · rw [if_neg hv]
      have hv' : val.msb = false := by simpa using hv
      rw [hv']
      rw [BitVec.getLsbD_and]
      have : ((1#w <<< m) - 1#w).getLsbD m = false := by
        rw [BitVec.getLsbD]
        have hlt : 2 ^ m < 2 ^ w := Nat.pow_lt_pow_right (by decide) hmw
        have : ((1#w <<< m) - 1#w).toNat = 2 ^ m - 1 := by
          have hone : 1 % 2 ^ w = 1 := Nat.mod_eq_of_lt (Nat.one_lt_two_pow (by omega))
          rw [BitVec.toNat_sub, BitVec.toNat_shiftLeft, BitVec.toNat_ofNat, hone, Nat.one_shiftLeft,
            Nat.mod_eq_of_lt hlt]
          have : 2 ^ w - 1 + 2 ^ m = (2 ^ m - 1) + 2 ^ w := by
            have : 0 < 2 ^ m := Nat.two_pow_pos m
            omega
          rw [this, Nat.add_mod_right, Nat.mod_eq_of_lt (by omega)]
        rw [this]
        simp
      rw [this]; simp
  · apply List.map_congr_left
    intro j hj
    have hj : j < m := by simpa using hj
    have hj' : m - 1 - j < m := by omega
    generalize m - 1 - j = q at hj'
    rw [← BitVec.getLsbD, BitVec.getLsbD_setWidth, Nat.testBit_shiftRight]
    have hq8 : q < 8 := by omega
    have hin : size - 8 + q < w := by omega
    have hq : (val.sshiftRight (size - 8)).getLsbD q = val.toNat.testBit (size - 8 + q) := by
      rw [BitVec.getLsbD_sshiftRight]
      simp only [hin, ↓reduceIte, BitVec.getLsbD]
      have : ¬ w ≤ q := by omega
      simp [this]
    by_cases hv : val.msb
    · rw [if_pos hv, BitVec.getLsbD_or, hq, BitVec.getLsbD_shiftLeft]
      simp [hq8, hj']
    · rw [if_neg hv, BitVec.getLsbD_and, hq]
      have : ((1#w <<< m) - 1#w).getLsbD q = true := by
        rw [BitVec.getLsbD]
        have hlt : 2 ^ m < 2 ^ w := Nat.pow_lt_pow_right (by decide) hmw
        have : ((1#w <<< m) - 1#w).toNat = 2 ^ m - 1 := by
          have hone : 1 % 2 ^ w = 1 := Nat.mod_eq_of_lt (Nat.one_lt_two_pow (by omega))
          rw [BitVec.toNat_sub, BitVec.toNat_shiftLeft, BitVec.toNat_ofNat, hone, Nat.one_shiftLeft,
            Nat.mod_eq_of_lt hlt]
          have : 2 ^ w - 1 + 2 ^ m = (2 ^ m - 1) + 2 ^ w := by
            have : 0 < 2 ^ m := Nat.two_pow_pos m
            omega
          rw [this, Nat.add_mod_right, Nat.mod_eq_of_lt (by omega)]
        rw [this]
        simp [hj']
      rw [this]; simp [hq8]

theorem writeIntGroup_rest {w : Nat} (val : BitVec w) (size i : Nat) (hi0 : i ≠ 0) (hi : i < size)
    (hw : size ≤ w) :
    writeIntGroup val size i =
      ⟨natBits (min 8 (size - i)) (val.toNat >>> (size - (i + 8))), .ok (min 8 (size - i))⟩ := by
  have hs : (if size < i + 8 then size - i else 8) = min 8 (size - i) := by split <;> omega
  have hub : ¬(size > i + 8 ∧ size - (i + 8) ≥ promotedWidth w) := by
    have := promoted_pos w; omega
  unfold writeIntGroup
  simp only [hs]
  rw [if_neg hub, W.writeBits_one _ _ (by omega), if_neg hi0]
  simp only [W.bind_eq, W.bind_ok, W.pure_eq, List.append_nil]
  congr 1
  rw [natBits_eq_range, natBits_eq_range]
  apply List.map_congr_left
  intro j hj
  have hj : j < min 8 (size - i) := by simpa using hj
  have hq : min 8 (size - i) - 1 - j < min 8 (size - i) := by omega
  generalize min 8 (size - i) - 1 - j = q at hq
  rw [← BitVec.getLsbD, BitVec.getLsbD_setWidth, Nat.testBit_shiftRight]
  have hq8 : q < 8 := by omega
  simp only [hq8, decide_true, Bool.true_and]
  by_cases h1 : size > i + 8
  · rw [if_pos h1, BitVec.getLsbD_sshiftRight]
    have h2 : size - (i + 8) + q < w := by omega
    have h3 : ¬ w ≤ q := by omega
    simp [h2, h3, BitVec.getLsbD]
  · rw [if_neg h1]
    have : size - (i + 8) = 0 := by omega
    simp [this, BitVec.getLsbD]

theorem writeIntGo_rest {w : Nat} (val : BitVec w) (size : Nat) (hw : size ≤ w) (k i : Nat) (hi0 : i ≠ 0)
    (hk : k = (size - i + 7) / 8) :
    writeIntGo val size k i = ⟨natBits (size - i) val.toNat, .ok (size - i)⟩ := by
  induction k generalizing i with
  | zero =>
    have : size - i = 0 := by omega
    rw [this]; rfl
  | succ k ih =>
    have hi : i < size := by omega
    rw [writeIntGo, writeIntGroup_rest val size i hi0 hi hw, ih (i + 8) (by omega) (by omega)]
    simp only [W.bind_eq, W.bind_ok, W.pure_eq, List.append_nil]
    have hs : size - i = min 8 (size - i) + (size - (i + 8)) := by omega
    congr 1
    · rw [← natBits_add, ← hs]
    · congr 1; omega

/-- Exact output of `write_int`: the sign, then the low `size - 1` bits. -/
theorem write_int_eq {w : Nat} (val : BitVec w) (size : Nat) (h0 : 0 < size) (hw : size ≤ w) :
    write_int val size = ⟨val.msb :: natBits (size - 1) val.toNat, .ok size⟩ := by
  obtain ⟨k, hk⟩ : ∃ k, (size + 7) / 8 = k + 1 := ⟨(size + 7) / 8 - 1, by omega⟩
  rw [write_int, hk, writeIntGo, writeIntGroup_first val size h0 hw,
    writeIntGo_rest val size hw k (0 + 8) (by decide) (by omega)]
  simp only [W.bind_eq, W.bind_ok, W.pure_eq, List.append_nil, List.cons_append, Nat.zero_add]
  congr 1
  · congr 1
    rw [← natBits_add]; congr 1; omega
  · congr 1; omega

theorem write_int_full {w : Nat} (val : BitVec w) (h0 : 0 < w) :
    write_int val = ⟨bits val, .ok w⟩ := by
  rw [write_int_eq val w h0 (Nat.le_refl w)]
  obtain ⟨k, rfl⟩ : ∃ k, w = k + 1 := ⟨w - 1, by omega⟩
  rw [bits, natBits]
  simp [BitVec.msb_eq_getLsbD_last, BitVec.getLsbD]

end Mp4
