import Verif.BitIO.FuncsLemmas

/-! # Lemmas about the reading functions of `bitio` -/

namespace Mp4

open R

theorem accumulate_toNat (init : BitVec 64) (l : List Byte) :
    (accumulate init l).toNat = (init.toNat * 2 ^ (8 * l.length) + ofBits (bytesBits l)) % 2 ^ 64 := by
  induction l generalizing init with
  | nil => simp [accumulate]; exact (Nat.mod_eq_of_lt init.isLt).symm
  | cons b l ih =>
    have e : accumulate init (b :: l) = accumulate ((init <<< 8) ||| b.setWidth 64) l := rfl
    rw [e, ih, bytesBits_cons, ofBits_append, ofBits_bits]
    have h1 : ((init <<< 8) ||| b.setWidth 64).toNat = (init.toNat * 2 ^ 8 + b.toNat) % 2 ^ 64 := by
      rw [BitVec.toNat_or, BitVec.toNat_shiftLeft, BitVec.toNat_setWidth]
      have hb : b.toNat < 2 ^ 8 := b.isLt
      rw [← Nat.or_mod_two_pow, ← Nat.shiftLeft_add_eq_or_of_lt hb, Nat.shiftLeft_eq]
    rw [h1, bytesBits_length, Nat.mod_add_mod_mul_helper]
    congr 1
    rw [Nat.add_mul, List.length_cons, Nat.mul_add, Nat.mul_one, Nat.pow_add, Nat.add_assoc]
    congr 1
    rw [Nat.mul_assoc, Nat.mul_comm (2 ^ 8)]
where
  Nat.mod_add_mod_mul_helper {a k c m : Nat} : (a % m * k + c) % m = (a * k + c) % m := by
    rw [Nat.add_mod, Nat.mul_mod, Nat.mod_mod, ← Nat.mul_mod, ← Nat.add_mod]

theorem ofBits_replicate_false (n : Nat) (l : List Bool) :
    ofBits (List.replicate n false ++ l) = ofBits l := by
  induction n with
  | zero => simp
  | succ n ih => rw [List.replicate_succ, List.cons_append, ofBits_cons, ih]; simp

theorem packBits_bits (l : List Bool) :
    bytesBits (packBits l) = List.replicate ((l.length + 7) / 8 * 8 - l.length) false ++ l := by
  rw [packBits, bytesBits_toBytes]
  simp; omega

theorem packBits_byte (b : Byte) : packBits (bits b) = [b] := by
  apply bytesBits_inj
  rw [packBits_bits]; simp

theorem run_readBits (f : List Byte → R β) (n : Nat) (d : List Byte) (l rest : List Bool)
    (h : l.length = n) :
    ((R.readBits n).bind f).run d (l ++ rest) = (f (packBits l)).run d rest := by
  rw [R.readBits, bind_assoc', run_bind_ok (run_readBitList n d l rest h)]
  rfl

theorem run_readBits_eof (f : List Byte → R β) (n : Nat) (d : List Byte) (l : List Bool)
    (h : l.length < n) :
    ((R.readBits n).bind f).run d l = .error .eof := by
  rw [R.readBits, bind_assoc', run_bind, run_readBitList_eof n d l h]

theorem run_readBits_byte (f : List Byte → R β) (d : List Byte) (b : Byte) (rest : List Bool) :
    ((R.readBits 8).bind f).run d (bits b ++ rest) = (f [b]).run d rest := by
  rw [run_readBits f 8 d (bits b) rest (by simp), packBits_byte]

theorem read_uint_raw (w n : Nat) (f : Nat × BitVec w → R β) (d : List Byte) (l rest : List Bool)
    (h0 : 0 < n) (h : l.length = n) (hn : n ≤ 64) :
    ((read_uint w n).bind f).run d (l ++ rest) = (f (n, BitVec.ofNat w (ofBits l))).run d rest := by
  rw [read_uint, if_neg (by omega)]
  simp only [bind_eq, pure_eq]
  rw [bind_assoc', run_readBits _ n d l rest h]
  have : BitVec.setWidth w (accumulate 0 (packBits l)) = BitVec.ofNat w (ofBits l) := by
    apply BitVec.eq_of_toNat_eq
    rw [BitVec.toNat_setWidth, accumulate_toNat, packBits_bits, ofBits_replicate_false,
      BitVec.toNat_ofNat]
    have hlt : ofBits l < 2 ^ 64 :=
      Nat.lt_of_lt_of_le (ofBits_lt l) (Nat.pow_le_pow_right (by decide) (by omega))
    simp [Nat.mod_eq_of_lt hlt]
  rw [this]; rfl

/-- Read a field of `n` bits. -/
theorem run_read_uint (w n x : Nat) (f : Nat × BitVec w → R β) (d : List Byte) (rest : List Bool)
    (h0 : 0 < n := by decide) (hn : n ≤ 64 := by decide) :
    ((read_uint w n).bind f).run d (natBits n x ++ rest)
      = (f (n, BitVec.ofNat w (x % 2 ^ n))).run d rest := by
  rw [read_uint_raw w n f d _ rest h0 (by simp) hn, ofBits_natBits]

/-- Read a full-width field. -/
theorem run_read_uint_full (w : Nat) (v : BitVec w) (f : Nat × BitVec w → R β) (d : List Byte)
    (rest : List Bool) (h0 : 0 < w := by decide) (hw : w ≤ 64 := by decide) :
    ((read_uint w).bind f).run d (bits v ++ rest) = (f (w, v)).run d rest := by
  rw [read_uint_raw w w f d _ rest h0 (by simp) hw, ofBits_bits]; simp

theorem run_read_uint_eof (w n : Nat) (f : Nat × BitVec w → R β) (d : List Byte) (l : List Bool)
    (h : l.length < n) :
    ((read_uint w n).bind f).run d l = .error .eof := by
  rw [read_uint, if_neg (by omega)]
  simp only [bind_eq, pure_eq]
  rw [bind_assoc', run_readBits_eof _ n d l h]

/-! ### read_int -/

theorem pack_head (b : Bool) (t : List Bool) :
    ∃ d0 ds, packBits (b :: t) = d0 :: ds ∧ d0.getLsbD (t.length % 8) = b ∧
      d0.toNat < 2 ^ (t.length % 8 + 1) ∧
      ds.length = t.length / 8 ∧
      (d0.toNat % 2 ^ (t.length % 8)) * 2 ^ (8 * ds.length) + ofBits (bytesBits ds) = ofBits t := by
  have hb := packBits_bits (b :: t)
  cases hp : packBits (b :: t) with
  | nil =>
    rw [hp] at hb
    have := congrArg List.length hb
    simp at this
  | cons d0 ds =>
    rw [hp] at hb
    have hlen := congrArg List.length hb
    simp only [bytesBits_length, List.length_cons, List.length_append, List.length_replicate] at hlen
    have hds : ds.length = t.length / 8 := by omega
    refine ⟨d0, ds, rfl, ?_, ?_, hds, ?_⟩
    all_goals
      rw [bytesBits_cons] at hb
      have hrep : (((b :: t).length + 7) / 8 * 8 - (b :: t).length) = 7 - t.length % 8 := by
        simp only [List.length_cons]; omega
      rw [hrep] at hb
      -- split t into the part in the first byte and the rest
      have hsplit : List.replicate (7 - t.length % 8) false ++ b :: t
          = (List.replicate (7 - t.length % 8) false ++ b :: t.take (t.length % 8)) ++ t.drop (t.length % 8) := by
        simp
      rw [hsplit] at hb
      have h8 : (bits d0).length = (List.replicate (7 - t.length % 8) false ++ b :: t.take (t.length % 8)).length := by
        simp only [bits_length, List.length_append, List.length_replicate, List.length_cons, List.length_take]
        omega
      obtain ⟨ha, hbb⟩ := List.append_inj hb h8
      have hd0 : d0.toNat = b.toNat * 2 ^ (t.length % 8) + ofBits (t.take (t.length % 8)) := by
        rw [← ofBits_bits d0, ha, ofBits_replicate_false, ofBits_cons]
        congr 3; simp; omega
      have hlt : ofBits (t.take (t.length % 8)) < 2 ^ (t.length % 8) := by
        have := ofBits_lt (t.take (t.length % 8))
        have e : (t.take (t.length % 8)).length = t.length % 8 := by simp; omega
        rwa [e] at this
    · rw [BitVec.getLsbD, hd0]
      cases b
      · simp [Nat.testBit_lt_two_pow hlt]
      · simp only [Bool.toNat_true, Nat.one_mul]
        rw [Nat.testBit_two_pow_add_eq, Nat.testBit_lt_two_pow hlt]; rfl
    · rw [hd0, Nat.pow_succ]; cases b <;> simp <;> omega
    · rw [hd0, hbb]
      have : (b.toNat * 2 ^ (t.length % 8) + ofBits (t.take (t.length % 8))) % 2 ^ (t.length % 8)
          = ofBits (t.take (t.length % 8)) := by
        rw [Nat.mul_comm, Nat.mul_add_mod, Nat.mod_eq_of_lt hlt]
      rw [this]
      have e : 8 * ds.length = (t.drop (t.length % 8)).length := by simp; omega
      rw [e, ← ofBits_append, List.take_append_drop]

theorem maskByte (k : Nat) (hk : k < 8) (d0 : Byte) (hlt : d0.toNat < 2 ^ (k + 1)) :
    ((d0 &&& (1#8 <<< k) ≠ 0) ↔ d0.getLsbD k = true) ∧
    (d0.getLsbD k = true → (d0 ||| ~~~((1#8 <<< k) - 1)).toNat = 256 - 2 ^ k + d0.toNat % 2 ^ k) ∧
    (d0.getLsbD k = false → d0.toNat % 2 ^ k = d0.toNat) := by
  have key : ∀ (k : Nat) (_ : k < 8) (d0 : BitVec 8), d0.toNat < 2 ^ (k + 1) →
    ((d0 &&& (1#8 <<< k) ≠ 0) ↔ d0.getLsbD k = true) ∧
    (d0.getLsbD k = true → (d0 ||| ~~~((1#8 <<< k) - 1)).toNat = 256 - 2 ^ k + d0.toNat % 2 ^ k) ∧
    (d0.getLsbD k = false → d0.toNat % 2 ^ k = d0.toNat) := by decide +kernel
  exact key k hk d0 hlt

/-- Value delivered by `read_int` for the bits `b :: t`: the sign extension of the field. -/
theorem read_int_raw (w : Nat) (f : Nat × BitVec w → R β) (d : List Byte) (b : Bool) (t rest : List Bool)
    (hn : t.length < 64) (hw : w ≤ 64) :
    ((read_int w (t.length + 1)).bind f).run d (b :: t ++ rest)
      = (f (t.length + 1, BitVec.ofInt w ((ofBits t : Int) - if b then 2 ^ t.length else 0))).run d rest := by
  rw [read_int, if_neg (by omega)]
  simp only [bind_eq, pure_eq]
  rw [bind_assoc', run_readBits _ (t.length + 1) d (b :: t) rest (by simp)]
  obtain ⟨d0, ds, hp, hbit, hlt, hlen, hval⟩ := pack_head b t
  have hk : t.length % 8 < 8 := Nat.mod_lt _ (by decide)
  obtain ⟨m1, m2, m3⟩ := maskByte (t.length % 8) hk d0 hlt
  rw [hp]
  simp only [Nat.add_sub_cancel]
  have htl : t.length = t.length % 8 + 8 * ds.length := by rw [hlen]; omega
  have hot := ofBits_lt t
  have h64 : 2 ^ t.length ≤ 2 ^ 63 := Nat.pow_le_pow_right (by decide) (by omega)
  have hww : (2 : Nat) ^ w ∣ 2 ^ 64 := Nat.pow_dvd_pow 2 hw
  cases b with
  | true =>
    rw [if_pos (m1.2 hbit)]
    have : BitVec.setWidth w (accumulate (BitVec.allOnes 64) ((d0 ||| ~~~((1#8 <<< (t.length % 8)) - 1)) :: ds))
        = BitVec.ofInt w ((ofBits t : Int) - 2 ^ t.length) := by
      apply BitVec.eq_of_toNat_eq
      rw [BitVec.toNat_setWidth, accumulate_toNat, bytesBits_cons, ofBits_append, ofBits_bits, m2 hbit,
        BitVec.toNat_ofInt, bytesBits_length, BitVec.toNat_allOnes, List.length_cons]
      generalize hL : 8 * ds.length = L at *
      generalize t.length % 8 = k at *
      have hpk : 2 ^ k < 256 := by
        have : 2 ^ k < 2 ^ 8 := Nat.pow_lt_pow_right (by decide) hk
        simpa using this
      -- value of the accumulator before reduction
      have e1 : (2 ^ 64 - 1) * 2 ^ (8 * (ds.length + 1)) + ((256 - 2 ^ k + d0.toNat % 2 ^ k) * 2 ^ L + ofBits (bytesBits ds))
          = 2 ^ 64 * 2 ^ (8 * (ds.length + 1)) - 2 ^ t.length + ofBits t := by
        have hL1 : 8 * (ds.length + 1) = L + 8 := by omega
        rw [hL1, Nat.pow_add, ← hval, htl, Nat.pow_add, Nat.add_mul, Nat.sub_mul, Nat.sub_mul]
        have hle : 2 ^ k * 2 ^ L ≤ 256 * 2 ^ L := Nat.mul_le_mul_right _ (by omega)
        have e3 : (2:Nat) ^ L * 2 ^ 8 = 256 * 2 ^ L := by rw [Nat.mul_comm]
        rw [e3]
        have e4 : 256 * 2 ^ L ≤ 2 ^ 64 * (256 * 2 ^ L) := Nat.le_mul_of_pos_left _ (by decide)
        generalize 2 ^ k * 2 ^ L = A at *
        generalize 256 * 2 ^ L = B at *
        generalize (d0.toNat % 2 ^ k) * 2 ^ L = C at *
        omega
      rw [e1, Nat.mod_mod_of_dvd _ hww]
      have hge : 2 ^ t.length ≤ 2 ^ 64 * 2 ^ (8 * (ds.length + 1)) := by
        have : 1 ≤ 2 ^ (8 * (ds.length + 1)) := Nat.one_le_two_pow
        have : 2 ^ 64 * 1 ≤ 2 ^ 64 * 2 ^ (8 * (ds.length + 1)) := Nat.mul_le_mul_left _ this
        omega
      apply Int.ofNat.inj
      simp only [Int.ofNat_eq_natCast]
      rw [Int.toNat_of_nonneg (Int.emod_nonneg _ (by exact_mod_cast Nat.ne_of_gt (Nat.two_pow_pos w)))]
      rw [Int.natCast_emod, Int.natCast_add, Int.ofNat_sub hge]
      obtain ⟨c, hc⟩ := hww
      have hfac : ((2 ^ 64 * 2 ^ (8 * (ds.length + 1)) : Nat) : Int)
          = ((2 ^ w : Nat) : Int) * ((c * 2 ^ (8 * (ds.length + 1)) : Nat) : Int) := by
        rw [← Int.natCast_mul, ← Nat.mul_assoc, ← hc]
      rw [hfac]
      have e5 : ∀ x y z : Int, x - y + z = (z - y) + x := by intros; omega
      rw [e5, Int.add_mul_emod_self_left]
      simp
    rw [this]; simp
  | false =>
    have hm : ¬ (d0 &&& (1#8 <<< (t.length % 8)) ≠ 0) := fun h => by
      rw [m1.1 h] at hbit; exact absurd hbit (by decide)
    rw [if_neg hm]
    have : BitVec.setWidth w (accumulate 0 (d0 :: ds)) = BitVec.ofInt w ((ofBits t : Int)) := by
      apply BitVec.eq_of_toNat_eq
      rw [BitVec.toNat_setWidth, accumulate_toNat, bytesBits_cons, ofBits_append, ofBits_bits,
        BitVec.toNat_ofInt, bytesBits_length]
      rw [m3 hbit] at hval
      rw [hval]
      simp only [BitVec.toNat_zero, BitVec.ofNat_eq_ofNat, Nat.zero_mul, Nat.zero_add]
      rw [Nat.mod_mod_of_dvd _ hww, ← Int.natCast_emod, Int.toNat_natCast]
    rw [this]; simp

theorem toInt_fits {w : Nat} (v : BitVec w) (n : Nat) (h0 : 0 < n) (_hn : n ≤ w)
    (hlo : -(2 ^ (n - 1) : Int) ≤ v.toInt) (hhi : v.toInt < 2 ^ (n - 1)) :
    ((v.toNat % 2 ^ (n - 1) : Nat) : Int) - (if v.msb then 2 ^ (n - 1) else 0) = v.toInt := by
  have hv := v.isLt
  rw [BitVec.toInt_eq_msb_cond] at *
  obtain ⟨m, rfl⟩ : ∃ m, n = m + 1 := ⟨n - 1, by omega⟩
  simp only [Nat.add_sub_cancel] at *
  have hmw : m ≤ w := by omega
  obtain ⟨q, rfl⟩ : ∃ q, w = m + q := ⟨w - m, by omega⟩
  cases hm : v.msb with
  | false =>
    simp only [hm, Bool.false_eq_true, ↓reduceIte] at *
    have : v.toNat < 2 ^ m := by exact_mod_cast hhi
    rw [Nat.mod_eq_of_lt this]; simp
  | true =>
    simp only [hm, ↓reduceIte] at *
    have hp : 2 ^ m ≤ 2 ^ (m + q) := Nat.pow_le_pow_right (by decide) (by omega)
    have h1 : 2 ^ (m + q) - 2 ^ m ≤ v.toNat := by
      have : ((2 ^ (m + q) : Nat) : Int) ≤ (v.toNat : Int) + ((2 ^ m : Nat) : Int) := by
        push_cast; push_cast at hlo; omega
      have : 2 ^ (m + q) ≤ v.toNat + 2 ^ m := by exact_mod_cast this
      omega
    have hmod : v.toNat % 2 ^ m = v.toNat - (2 ^ (m + q) - 2 ^ m) := by
      have e : 2 ^ (m + q) - 2 ^ m = 2 ^ m * (2 ^ q - 1) := by
        rw [Nat.pow_add, Nat.mul_sub, Nat.mul_one]
      have : v.toNat = (v.toNat - (2 ^ (m + q) - 2 ^ m)) + 2 ^ m * (2 ^ q - 1) := by omega
      rw [this, Nat.add_mul_mod_self_left, ← e]
      rw [Nat.mod_eq_of_lt (by omega)]; omega
    rw [hmod, Int.ofNat_sub h1, Int.ofNat_sub hp]
    push_cast; omega

end Mp4

namespace Mp4
open R

/-- `read_int` on the output of `write_int`, for representable values. -/
theorem run_read_int {w : Nat} (v : BitVec w) (n : Nat) (f : Nat × BitVec w → R β) (d : List Byte)
    (rest : List Bool) (h0 : 0 < n) (hn : n ≤ w) (hw : w ≤ 64)
    (hlo : -(2 ^ (n - 1) : Int) ≤ v.toInt) (hhi : v.toInt < 2 ^ (n - 1)) :
    ((read_int w n).bind f).run d ((v.msb :: natBits (n - 1) v.toNat) ++ rest)
      = (f (n, v)).run d rest := by
  have hl : (natBits (n - 1) v.toNat).length + 1 = n := by simp; omega
  have := read_int_raw w (fun p => f (n, p.2)) d v.msb (natBits (n - 1) v.toNat) rest (by simp; omega) hw
  rw [ofBits_natBits] at this
  simp only [natBits_length] at this
  rw [toInt_fits v n h0 hn hlo hhi, BitVec.ofInt_toInt] at this
  have e : n - 1 + 1 = n := by omega
  rw [e] at this
  have h2 : ((read_int w n).bind fun p => f (n, p.2)) = (read_int w n).bind f := by
    have : ∀ (g : Nat × BitVec w → R β), (read_int w n).bind g
        = (read_int w n).bind fun p => g (n, p.2) := by
      intro g
      unfold read_int
      rw [if_neg (by omega)]
      simp only [bind_eq, pure_eq, bind_assoc']
      congr 1
      funext data
      cases data with
      | nil => rfl
      | cons d0 ds => dsimp only; split <;> rfl
    exact (this f).symm
  rw [← h2]
  exact this

theorem toInt_range {w : Nat} (v : BitVec w) (_h0 : 0 < w) :
    -(2 ^ (w - 1) : Int) ≤ v.toInt ∧ v.toInt < 2 ^ (w - 1) :=
  ⟨BitVec.le_toInt v, BitVec.toInt_lt⟩

theorem bits_eq_msb {w : Nat} (v : BitVec w) (h0 : 0 < w) :
    bits v = v.msb :: natBits (w - 1) v.toNat := by
  obtain ⟨k, rfl⟩ : ∃ k, w = k + 1 := ⟨w - 1, by omega⟩
  rw [bits, natBits]
  simp [BitVec.msb_eq_getLsbD_last, BitVec.getLsbD]

theorem run_read_int_full (w : Nat) (v : BitVec w) (f : Nat × BitVec w → R β) (d : List Byte)
    (rest : List Bool) (h0 : 0 < w := by decide) (hw : w ≤ 64 := by decide) :
    ((read_int w).bind f).run d (bits v ++ rest) = (f (w, v)).run d rest := by
  rw [bits_eq_msb v h0]
  exact run_read_int v w f d rest h0 (Nat.le_refl w) hw (toInt_range v h0).1 (toInt_range v h0).2

/-! ### booleans, lists, strings -/

theorem write_bool_eq (b : Bool) : write_bool b = ⟨[b], .ok 1⟩ := by
  rw [write_bool, W.writeBits_one _ _ (by decide)]
  cases b <;> rfl

theorem run_read_bool (f : Nat × Bool → R β) (d : List Byte) (b : Bool) (rest : List Bool) :
    (read_bool.bind f).run d (b :: rest) = (f (1, b)).run d rest := by
  simp only [read_bool, bind_eq, pure_eq]
  rw [bind_assoc', show b :: rest = [b] ++ rest from rfl, run_readBits _ 1 d [b] rest rfl]
  cases b <;> rfl

/-- A writer emits exactly `bs` and reports its length. -/
def Emits (m : W Nat) (bs : List Bool) : Prop := m = ⟨bs, .ok bs.length⟩

theorem writeList_eq {α : Type} (f : α → W Nat) (enc : α → List Bool) (l : List α)
    (h : ∀ x ∈ l, f x = ⟨enc x, .ok (enc x).length⟩) :
    writeList f l = ⟨l.flatMap enc, .ok (l.flatMap enc).length⟩ := by
  induction l with
  | nil => rfl
  | cons x l ih =>
    rw [writeList, h x (by simp), ih (fun y hy => h y (by simp [hy]))]
    simp

theorem readN_eq {α : Type} (p : R (Nat × α)) (enc : α → List Bool) (d : List Byte) (l : List α)
    (rest : List Bool)
    (h : ∀ x ∈ l, ∀ rest, p.run d (enc x ++ rest) = .ok (((enc x).length, x), rest)) :
    (readN p l.length).run d (l.flatMap enc ++ rest) = .ok (((l.flatMap enc).length, l), rest) := by
  induction l with
  | nil => rfl
  | cons x l ih =>
    rw [List.length_cons, readN]
    simp only [bind_eq, pure_eq, List.flatMap_cons, List.append_assoc]
    rw [run_bind_ok (h x (by simp) _)]
    simp only
    rw [run_bind_ok (ih (fun y hy => h y (by simp [hy])))]
    simp

/-- Reading a list then continuing. -/
theorem run_readN {α : Type} (p : R (Nat × α)) (enc : α → List Bool) (f : Nat × List α → R β) (d : List Byte)
    (l : List α) (n : Nat) (hn : n = l.length) (rest : List Bool)
    (h : ∀ x ∈ l, ∀ rest, p.run d (enc x ++ rest) = .ok (((enc x).length, x), rest)) :
    ((readN p n).bind f).run d (l.flatMap enc ++ rest) = (f ((l.flatMap enc).length, l)).run d rest := by
  subst hn
  exact run_bind_ok (readN_eq p enc d l rest h)

theorem flatMap_bits_length {w : Nat} (l : List (BitVec w)) : (l.flatMap bits).length = w * l.length := by
  induction l with
  | nil => simp
  | cons a l ih => simp [ih, Nat.mul_add, Nat.add_comm]

@[simp] theorem write_vector_uint_eq {w : Nat} (l : List (BitVec w)) :
    write_vector_uint l = ⟨l.flatMap bits, .ok (w * l.length)⟩ := by
  rw [write_vector_uint, writeList_eq _ bits l (by intro x _; simp), flatMap_bits_length]

theorem read_uint_run (w : Nat) (v : BitVec w) (d : List Byte) (rest : List Bool)
    (h0 : 0 < w := by decide) (hw : w ≤ 64 := by decide) :
    (read_uint w).run d (bits v ++ rest) = .ok ((w, v), rest) := by
  have := run_read_uint_full w v .ret d rest h0 hw
  rwa [bind_ret] at this

theorem run_read_vector_uint {w : Nat} (l : List (BitVec w)) (n : Nat) (f : Nat × List (BitVec w) → R β)
    (d : List Byte) (rest : List Bool) (hn : n = l.length)
    (h0 : 0 < w := by decide) (hw : w ≤ 64 := by decide) :
    ((read_vector_uint w n).bind f).run d (l.flatMap bits ++ rest) = (f (w * l.length, l)).run d rest := by
  rw [read_vector_uint, run_readN (read_uint w) bits f d l n hn rest
    (by intro x _ rest; rw [read_uint_run w x d rest h0 hw, bits_length]), flatMap_bits_length]

/-- As above, at the very end of the stream. -/
theorem run_read_vector_uint_end {w : Nat} (l : List (BitVec w)) (n : Nat) (f : Nat × List (BitVec w) → R β)
    (d : List Byte) (hn : n = l.length)
    (h0 : 0 < w := by decide) (hw : w ≤ 64 := by decide) :
    ((read_vector_uint w n).bind f).run d (l.flatMap bits) = (f (w * l.length, l)).run d [] := by
  have := run_read_vector_uint l n f d [] hn h0 hw
  rwa [List.append_nil] at this

@[simp] theorem writeBytes8_eq (l : List Byte) : writeBytes8 l = ⟨bytesBits l, .ok (8 * l.length)⟩ := by
  induction l with
  | nil => rfl
  | cons c l ih => rw [writeBytes8, ih]; simp [Nat.mul_add, Nat.add_comm]

@[simp] theorem write_string_eq (s : List Byte) :
    write_string s = ⟨bytesBits (s ++ [0]), .ok (8 * (s.length + 1))⟩ := by
  rw [write_string]; simp [Nat.mul_add]

/-- `read_string` with enough budget on a terminated NUL-free string. -/
theorem run_readStringGo (s : List Byte) (hs : ∀ c ∈ s, c ≠ 0) (k : Nat) (hk : s.length < k)
    (d : List Byte) (rest : List Bool) :
    (readStringGo k).run d (bytesBits (s ++ [0]) ++ rest) = .ok ((8 * (s.length + 1), s), rest) := by
  induction s generalizing k with
  | nil =>
    obtain ⟨k, rfl⟩ : ∃ j, k = j + 1 := ⟨k - 1, by simp at hk; omega⟩
    rw [readStringGo]
    simp only [List.nil_append, bytesBits_cons, bytesBits_nil, List.append_assoc, bind_eq, pure_eq]
    rw [run_readBits_byte]; rfl
  | cons c s ih =>
    obtain ⟨k, rfl⟩ : ∃ j, k = j + 1 := ⟨k - 1, by simp at hk; omega⟩
    rw [readStringGo]
    simp only [List.cons_append, bytesBits_cons, List.append_assoc, bind_eq, pure_eq]
    rw [run_readBits_byte]
    have hc : c ≠ 0 := hs c (by simp)
    simp only [List.getD_cons_zero, hc, ↓reduceIte]
    rw [run_bind_ok (ih (fun x hx => hs x (by simp [hx])) k (by simpa using hk))]
    simp; omega

/-- `read_string` whose budget ends before a NUL is met. -/
theorem run_readStringGo_short (s : List Byte) (hs : ∀ c ∈ s, c ≠ 0)
    (d : List Byte) (rest : List Bool) :
    (readStringGo s.length).run d (bytesBits s ++ rest) = .ok ((8 * s.length, s), rest) := by
  induction s with
  | nil => rfl
  | cons c s ih =>
    rw [List.length_cons, readStringGo]
    simp only [bytesBits_cons, List.append_assoc, bind_eq, pure_eq]
    rw [run_readBits_byte]
    have hc : c ≠ 0 := hs c (by simp)
    simp only [List.getD_cons_zero, hc, ↓reduceIte]
    rw [run_bind_ok (ih (fun x hx => hs x (by simp [hx])))]
    simp; omega

theorem run_read_string (s : List Byte) (hs : ∀ c ∈ s, c ≠ 0) (m : Nat) (hm : 8 * (s.length + 1) ≤ m)
    (f : Nat × List Byte → R β) (d : List Byte) (rest : List Bool) :
    ((read_string m).bind f).run d (bytesBits (s ++ [0]) ++ rest)
      = (f (8 * (s.length + 1), s)).run d rest :=
  run_bind_ok (run_readStringGo s hs _ (by omega) d rest)

theorem run_readBytes8 (s : List Byte) (d : List Byte) (rest : List Bool) :
    (readBytes8 s.length).run d (bytesBits s ++ rest) = .ok ((8 * s.length, s), rest) := by
  induction s with
  | nil => rfl
  | cons c s ih =>
    rw [List.length_cons, readBytes8]
    simp only [bytesBits_cons, List.append_assoc, bind_eq, pure_eq]
    rw [run_readBits_byte, run_bind_ok ih]
    simp; omega

theorem write_array_eq (v : Arr4) :
    write_array_uint8_4 v = ⟨bytesBits [v.b0, v.b1, v.b2, v.b3], .ok 32⟩ := by
  simp [write_array_uint8_4]

theorem run_read_array (v : Arr4) (f : Nat × Arr4 → R β) (d : List Byte) (rest : List Bool) :
    (read_array_uint8_4.bind f).run d (bytesBits [v.b0, v.b1, v.b2, v.b3] ++ rest)
      = (f (32, v)).run d rest := by
  simp only [read_array_uint8_4, bind_eq, pure_eq, bind_assoc', bytesBits_cons, bytesBits_nil,
    List.append_nil, List.append_assoc]
  rw [run_read_uint_full 8, run_read_uint_full 8, run_read_uint_full 8, run_read_uint_full 8]
  rfl

/-! ### uvarint -/

/-- The bytes written by `write_uvarint`: groups of 7 bits, all but the last marked. -/
def uvarintBytes (x : Nat) : Nat → List Byte
  | 0 => []
  | k + 1 => BitVec.ofNat 8 (x / 2 ^ (7 * k) % 128 + if k = 0 then 0 else 128) :: uvarintBytes x k

@[simp] theorem uvarintBytes_length (x k : Nat) : (uvarintBytes x k).length = k := by
  induction k with
  | zero => rfl
  | succ k ih => simp [uvarintBytes, ih]

theorem writeUvarintGo_eq (v : BitVec 64) (k : Nat) :
    writeUvarintGo v k = ⟨bytesBits (uvarintBytes v.toNat k), .ok ()⟩ := by
  induction k with
  | zero => rfl
  | succ k ih =>
    rw [writeUvarintGo, ih]
    simp only [W.bind_eq, W.writeBits_byte, W.bind_ok, uvarintBytes, bytesBits_cons]
    congr 3
    have hx : ((v >>> (7 * k)) &&& 0x7f#64).toNat = v.toNat / 2 ^ (7 * k) % 128 := by
      rw [BitVec.toNat_and, BitVec.toNat_ushiftRight, Nat.shiftRight_eq_div_pow]
      exact Nat.and_two_pow_sub_one_eq_mod _ 7
    have hlt : v.toNat / 2 ^ (7 * k) % 128 < 128 := Nat.mod_lt _ (by decide)
    have hb : ((v >>> (7 * k)) &&& 0x7f#64).setWidth 8 = BitVec.ofNat 8 (v.toNat / 2 ^ (7 * k) % 128) := by
      apply BitVec.eq_of_toNat_eq
      rw [BitVec.toNat_setWidth, hx, BitVec.toNat_ofNat]
    rw [hb]
    generalize v.toNat / 2 ^ (7 * k) % 128 = y at hlt
    by_cases hk : k = 0
    · subst hk; simp
    · have : 7 * k > 0 := by omega
      rw [if_pos this, if_neg hk]
      have key : ∀ y : Nat, y < 128 → BitVec.ofNat 8 y ||| 0x80#8 = BitVec.ofNat 8 (y + 128) := by
        decide +kernel
      exact key y hlt

theorem run_readUvarintGo (w x k fuel : Nat) (hk : 0 < k) (hf : k ≤ fuel) (val : BitVec w) (rb : Nat)
    (d : List Byte) (rest : List Bool) (hx : val.toNat * 2 ^ (7 * k) + x % 2 ^ (7 * k) < 2 ^ w) :
    (readUvarintGo w fuel val rb).run d (bytesBits (uvarintBytes x k) ++ rest)
      = .ok ((rb + 8 * k, BitVec.ofNat w (val.toNat * 2 ^ (7 * k) + x % 2 ^ (7 * k))), rest) := by
  induction k generalizing fuel val rb with
  | zero => omega
  | succ k ih =>
    obtain ⟨fuel, rfl⟩ : ∃ j, fuel = j + 1 := ⟨fuel - 1, by omega⟩
    rw [readUvarintGo, uvarintBytes]
    simp only [bytesBits_cons, List.append_assoc, bind_eq, pure_eq]
    rw [run_readBits_byte]
    simp only [List.getD_cons_zero]
    have hy : x / 2 ^ (7 * k) % 128 < 128 := Nat.mod_lt _ (by decide)
    have hdecomp : x % 2 ^ (7 * (k + 1)) = x / 2 ^ (7 * k) % 128 * 2 ^ (7 * k) + x % 2 ^ (7 * k) := by
      have : 7 * (k + 1) = 7 * k + 7 := by omega
      rw [this, Nat.pow_add, Nat.mod_mul]
      rw [Nat.add_comm, Nat.mul_comm (2 ^ (7 * k))]
    have key : ∀ y : Nat, y < 128 → ∀ m : Bool,
        BitVec.ofNat 8 (y + if m then 0 else 128) &&& 0x7f#8 = BitVec.ofNat 8 y ∧
        ((BitVec.ofNat 8 (y + if m then 0 else 128) &&& 0x80#8 = 0) ↔ m = true) := by decide +kernel
    obtain ⟨k1, k2⟩ := key _ hy (decide (k = 0))
    simp only [decide_eq_true_eq] at k1 k2
    rw [k1]
    have hpos : 0 < 2 ^ (7 * k) := Nat.two_pow_pos _
    have hstep : val.toNat * 2 ^ (7 * (k + 1)) + x % 2 ^ (7 * (k + 1))
        = (val.toNat * 128 + x / 2 ^ (7 * k) % 128) * 2 ^ (7 * k) + x % 2 ^ (7 * k) := by
      rw [hdecomp, Nat.add_mul]
      have : 7 * (k + 1) = 7 + 7 * k := by omega
      rw [this, Nat.pow_add, Nat.mul_assoc, show (2 : Nat) ^ 7 = 128 from rfl, Nat.add_assoc]
    rw [hstep] at hx ⊢
    have hsmall : val.toNat * 128 + x / 2 ^ (7 * k) % 128 < 2 ^ w := by
      have : (val.toNat * 128 + x / 2 ^ (7 * k) % 128) * 1
          ≤ (val.toNat * 128 + x / 2 ^ (7 * k) % 128) * 2 ^ (7 * k) := Nat.mul_le_mul_left _ hpos
      omega
    generalize x / 2 ^ (7 * k) % 128 = y at *
    have hval : (val <<< 7 + (BitVec.ofNat 8 y).setWidth w).toNat = val.toNat * 128 + y := by
      rw [BitVec.toNat_add, BitVec.toNat_shiftLeft, BitVec.toNat_setWidth, BitVec.toNat_ofNat,
        Nat.shiftLeft_eq]
      have hy2 : y % 2 ^ 8 = y := Nat.mod_eq_of_lt (by omega)
      rw [hy2, ← Nat.add_mod]
      exact Nat.mod_eq_of_lt hsmall
    by_cases hk0 : k = 0
    · rw [if_pos (k2.2 hk0)]
      subst hk0
      simp only [Nat.mul_zero, Nat.pow_zero, Nat.mod_one, Nat.mul_one, Nat.add_zero, uvarintBytes,
        bytesBits_nil, List.nil_append, run_ret, Nat.zero_add] at *
      congr 3
      apply BitVec.eq_of_toNat_eq
      rw [hval, BitVec.toNat_ofNat, Nat.mod_eq_of_lt hsmall]
    · rw [if_neg (fun h => hk0 (k2.1 h))]
      rw [ih fuel (by omega) (by omega) _ _ (by rw [hval]; exact hx), hval]
      congr 3; omega

end Mp4
