import Verif.BitIO.Objects

/-! # Lemmas about the bit writer and reader objects -/

namespace Mp4

theorem Writer.new_inv (os : OStream) : (Writer.new os).Inv := by simp [Writer.new, Writer.Inv]

@[simp] theorem Writer.new_pending (os : OStream) : (Writer.new os).pending = [] := by
  simp [Writer.new, Writer.pending]

theorem Writer.push_append (w : Writer) (a b : List Bool) : w.push (a ++ b) = (w.push a).push b := by
  simp [push]

@[simp] theorem Writer.push_nil (w : Writer) : w.push [] = w := rfl

theorem bits_take (v : Byte) (k : Nat) (h : k ≤ 8) :
    (bits v).take k = natBits k (v.toNat >>> (8 - k)) := by
  have : bits v = natBits k (v.toNat >>> (8 - k)) ++ natBits (8 - k) v.toNat := by
    rw [← natBits_add, bits]; congr 1; omega
  rw [this, List.take_left' (by simp)]

/-- One step of the writer, in terms of pending bits. -/
theorem Writer.writeBit_step (w : Writer) (h : w.Inv) (b : Bool) :
    (w.writeBit b).Inv ∧
    (if w.width = 7 then
       (w.writeBit b).os = w.os.write (toBytes (w.pending ++ [b])) ∧ (w.writeBit b).pending = []
     else (w.writeBit b).os = w.os ∧ (w.writeBit b).pending = w.pending ++ [b]) := by
  obtain ⟨hw, h0⟩ := h
  have key : ∀ (k : Nat) (_ : k < 8) (o : BitVec 8), o.toNat % 2 ^ (8 - k) = 0 → ∀ b : Bool,
      let o' := (if b then o ||| (1#8 <<< (7 - k)) else o)
      o'.toNat % 2 ^ (8 - (k + 1)) = 0 ∧ (bits o').take (k + 1) = (bits o).take k ++ [b] := by
    decide +kernel
  obtain ⟨k1, k2⟩ := key w.width hw w.octet h0 b
  by_cases h7 : w.width = 7
  · rw [if_pos h7]
    have hlen : (bits (if b then w.octet ||| (1#8 <<< (7 - w.width)) else w.octet)).take (w.width + 1)
        = bits (if b then w.octet ||| (1#8 <<< (7 - w.width)) else w.octet) :=
      List.take_of_length_le (by simp [h7])
    rw [hlen] at k2
    have hb : toBytes (w.pending ++ [b]) = [if b then w.octet ||| (1#8 <<< (7 - w.width)) else w.octet] := by
      rw [pending, ← k2]
      have := toBytes_bits_append (if b then w.octet ||| (1#8 <<< (7 - w.width)) else w.octet) []
      rw [List.append_nil] at this
      rw [this]; rfl
    have e : w.writeBit b = { os := w.os.write [if b then w.octet ||| (1#8 <<< (7 - w.width)) else w.octet], octet := 0, width := 0 } := by
      simp only [writeBit]; rw [if_pos (by omega)]
    rw [e, hb]
    exact ⟨Writer.new_inv _, rfl, by simp [pending]⟩
  · rw [if_neg h7]
    have e : w.writeBit b = { w with octet := (if b then w.octet ||| (1#8 <<< (7 - w.width)) else w.octet), width := w.width + 1 } := by
      simp only [writeBit]; rw [if_neg (by omega)]
    rw [e]
    exact ⟨⟨by simp only; omega, k1⟩, rfl, k2⟩

theorem Writer.pending_length (w : Writer) (h : w.Inv) : w.pending.length = w.width := by
  have := h.1
  simp [pending]; omega

/-- The writer object implements "append bits, flush full bytes". -/
theorem Writer.push_spec (w : Writer) (h : w.Inv) (bs : List Bool) :
    (w.push bs).Inv ∧ (w.push bs).os = w.os.write (toBytes (w.pending ++ bs)) ∧
    (w.push bs).pending = (w.pending ++ bs).drop (8 * ((w.pending ++ bs).length / 8)) := by
  induction bs generalizing w with
  | nil =>
    have hl := w.pending_length h
    have h8 := h.1
    have : toBytes w.pending = [] := by
      apply List.eq_nil_of_length_eq_zero
      rw [toBytes_length]; omega
    refine ⟨h, ?_, ?_⟩
    · simp [this, OStream.write]
    · have : w.pending.length / 8 = 0 := by omega
      simp [this]
  | cons b bs ih =>
    obtain ⟨hi, hs⟩ := w.writeBit_step h b
    have hpush : w.push (b :: bs) = (w.writeBit b).push bs := rfl
    rw [hpush]
    obtain ⟨i1, i2, i3⟩ := ih _ hi
    refine ⟨i1, ?_, ?_⟩
    · rw [i2]
      by_cases h7 : w.width = 7
      · rw [if_pos h7] at hs
        rw [hs.1, hs.2, ← OStream.write_append]
        congr 1
        have h88 : (w.pending ++ [b]).length % 8 = 0 := by
          rw [List.length_append, w.pending_length h, h7]; simp
        have := toBytes_bytesBits_append (toBytes (w.pending ++ [b])) bs
        rw [bytesBits_toBytes _ h88] at this
        rw [List.nil_append, ← this]; simp
      · rw [if_neg h7] at hs
        rw [hs.1, hs.2]; simp
    · rw [i3]
      by_cases h7 : w.width = 7
      · rw [if_pos h7] at hs
        rw [hs.2]
        have hl := w.pending_length h
        have e : w.pending ++ b :: bs = (w.pending ++ [b]) ++ bs := by simp
        have l8 : (w.pending ++ [b]).length = 8 := by simp [hl, h7]
        rw [e]
        have e2 : 8 * (((w.pending ++ [b]) ++ bs).length / 8) = (w.pending ++ [b]).length + 8 * (bs.length / 8) := by
          rw [List.length_append, l8]; omega
        rw [e2, ← List.drop_drop, List.drop_left]; rfl
      · rw [if_neg h7] at hs
        rw [hs.2]; simp

/-- A fresh writer given a whole number of bytes just writes those bytes. -/
theorem Writer.push_bytes (os : OStream) (l : List Byte) :
    ((Writer.new os).push (bytesBits l)) = ⟨os.write l, 0, 0⟩ := by
  obtain ⟨h1, h2, h3⟩ := Writer.push_spec (Writer.new os) (Writer.new_inv os) (bytesBits l)
  simp only [new_pending, List.nil_append, toBytes_bytesBits, bytesBits_length] at h2 h3
  rw [List.drop_of_length_le (by simp)] at h3
  have hw := Writer.pending_length _ h1
  rw [h3] at hw
  obtain ⟨hw8, hz⟩ := h1
  have hw0 : ((Writer.new os).push (bytesBits l)).width = 0 := by simpa using hw.symm
  rw [hw0] at hz
  have ho : ((Writer.new os).push (bytesBits l)).octet = 0 := by
    apply BitVec.eq_of_toNat_eq
    have := ((Writer.new os).push (bytesBits l)).octet.isLt
    simp at hz ⊢; omega
  generalize hg : (Writer.new os).push (bytesBits l) = w at *
  cases w; simp_all [new]

/-! ## Reader -/

theorem Reader.new_inv (is : IStream) (h : is.pos ≤ is.data.length) : (Reader.new is).Inv := by
  simp [new, Inv, h]

theorem Reader.readBit_nil (r : Reader) (h : r.Inv) (hr : r.rem = []) : r.readBit = .error .eof := by
  have hw : r.width = 0 := by
    have := congrArg List.length hr
    simp [rem] at this; omega
  have hd : r.is.data[r.is.pos]? = none := by
    have := congrArg List.length hr
    simp [rem] at this
    have := h.2
    simp; omega
  simp [readBit, hw, hd]

theorem Reader.readBit_cons (r : Reader) (h : r.Inv) (b : Bool) (t : List Bool) (hr : r.rem = b :: t) :
    ∃ r', r.readBit = .ok (b, r') ∧ r'.rem = t ∧ r'.Inv ∧ r'.is.data = r.is.data := by
  by_cases hw : r.width = 0
  · have hlt : r.is.pos < r.is.data.length := by
      have := congrArg List.length hr
      simp [rem, hw] at this
      omega
    have hg : r.is.data[r.is.pos]? = some (r.is.data[r.is.pos]) := by simp [hlt]
    refine ⟨{ is := { r.is with pos := r.is.pos + 1 }, octet := r.is.data[r.is.pos], width := 7 }, ?_, ?_, ?_, rfl⟩
    · have hb : (r.is.data[r.is.pos]).getLsbD 7 = b := by
        have hr' := hr
        simp only [rem, hw, natBits, List.nil_append] at hr'
        rw [List.drop_eq_getElem_cons hlt, bytesBits_cons, bits, natBits] at hr'
        simp only [List.cons_append, List.cons.injEq] at hr'
        exact hr'.1
      simp only [readBit, hw, hg, ↓reduceIte, Nat.add_one_sub_one, hb]
    · have hr' := hr
      simp only [rem, hw, natBits, List.nil_append] at hr'
      rw [List.drop_eq_getElem_cons hlt, bytesBits_cons, bits, natBits] at hr'
      simp only [List.cons_append, List.cons.injEq] at hr'
      simp only [rem]; exact hr'.2
    · exact ⟨by simp, by simp only; omega⟩
  · obtain ⟨k, hk⟩ : ∃ k, r.width = k + 1 := ⟨r.width - 1, by omega⟩
    refine ⟨{ r with width := r.width - 1 }, ?_, ?_, ?_, rfl⟩
    · have hr' := hr
      simp only [rem, hk, natBits, List.cons_append, List.cons.injEq] at hr'
      simp only [readBit, hk, Nat.add_one_ne_zero, ↓reduceIte, Nat.add_sub_cancel, BitVec.getLsbD, hr'.1]
    · have hr' := hr
      simp only [rem, hk, natBits, List.cons_append, List.cons.injEq] at hr'
      simp only [rem, hk, Nat.add_sub_cancel]; exact hr'.2
    · exact ⟨by have := h.1; simp only; omega, h.2⟩

theorem Reader.readBitList_spec (r : Reader) (h : r.Inv) (n : Nat) :
    (n ≤ r.rem.length → ∃ r', r.readBitList n = .ok (r.rem.take n, r') ∧ r'.rem = r.rem.drop n ∧ r'.Inv
        ∧ r'.is.data = r.is.data) ∧
    (r.rem.length < n → r.readBitList n = .error .eof) := by
  induction n generalizing r with
  | zero => exact ⟨fun _ => ⟨r, by simp [readBitList], by simp, h, rfl⟩, by simp⟩
  | succ n ih =>
    cases hr : r.rem with
    | nil => simp [readBitList, r.readBit_nil h hr]
    | cons b t =>
      obtain ⟨r1, e1, e2, e3, e4⟩ := r.readBit_cons h b t hr
      obtain ⟨i1, i2⟩ := ih r1 e3
      rw [e2] at i1 i2
      constructor
      · intro hle
        obtain ⟨r2, f1, f2, f3, f4⟩ := i1 (by simpa using hle)
        exact ⟨r2, by simp [readBitList, e1, f1], by simp [f2], f3, by rw [f4, e4]⟩
      · intro hlt
        simp [readBitList, e1, i2 (by simpa using hlt)]

end Mp4
