import Verif.BitIO.Attr
import Verif.BitIO.ReadLemmas
import Verif.Model.FullBox

/-!
# Lemmas and simp sets for the box encoders and decoders
-/

namespace Mp4

/-- Write a `std::array<T, n>` element by element (the `for` loops over fixed arrays in the boxes). -/
def write_arr {w n : Nat} (v : Vector (BitVec w) n) : W Nat := writeList (fun c => write_uint c) v.toList

/-- Same with `write_int`. -/
def write_arr_int {w n : Nat} (v : Vector (BitVec w) n) : W Nat := writeList (fun c => write_int c) v.toList

/-- Read a `std::array<T, n>` element by element. -/
def read_arr (w n : Nat) : R (Nat × Vector (BitVec w) n) := do
  let (r, l) ← readN (read_uint w) n
  pure (r, Vector.ofFn fun i => l.getD i 0)

/-- Same with `read_int`. -/
def read_arr_int (w n : Nat) : R (Nat × Vector (BitVec w) n) := do
  let (r, l) ← readN (read_int w) n
  pure (r, Vector.ofFn fun i => l.getD i 0)

/-- The bits of a fixed array. -/
def vbits {w n : Nat} (v : Vector (BitVec w) n) : List Bool := v.toList.flatMap bits

/-- Two's complement field of `n` bits: sign bit, then the low `n-1` bits. -/
def sbits {w : Nat} (n : Nat) (v : BitVec w) : List Bool := v.msb :: natBits (n - 1) v.toNat

/-- Unsigned field of `n` bits. -/
def ubits {w : Nat} (n : Nat) (v : BitVec w) : List Bool := natBits n v.toNat

/-- A one-bit field. -/
def bbit (b : Bool) : List Bool := [b]

/-- version and flags -/
def fbits (b : FullBox) : List Bool := bits b.version ++ bits b.f0 ++ bits b.f1 ++ bits b.f2

/-- A four-byte code. -/
def code4 (t : Arr4) : List Bool := bits t.b0 ++ bits t.b1 ++ bits t.b2 ++ bits t.b3

/-- A 32-bit count. -/
def cbits (w n : Nat) : List Bool := natBits w n

@[ll] theorem vbits_length {w n : Nat} (v : Vector (BitVec w) n) : (vbits v).length = w * n := by
  rw [vbits, flatMap_bits_length]; simp

@[ll] theorem sbits_length {w : Nat} (n : Nat) (v : BitVec w) (h : 0 < n) : (sbits n v).length = n := by
  simp [sbits]; omega

@[ll] theorem ubits_length {w : Nat} (n : Nat) (v : BitVec w) : (ubits n v).length = n := by simp [ubits]
@[ll] theorem code4_length (t : Arr4) : (code4 t).length = 32 := by simp [code4]
@[ll] theorem cbits_length (w n : Nat) : (cbits w n).length = w := by simp [cbits]

@[ll] theorem bbit_length (b : Bool) : (bbit b).length = 1 := rfl

@[ll] theorem fbits_length (b : FullBox) : (fbits b).length = 32 := by simp [fbits]

attribute [ll] bits_length natBits_length bytesBits_length List.length_append List.length_nil List.length_cons
  flatMap_bits_length

attribute [wr] W.bind_eq W.bind_ok W.pure_eq W.bind_error write_uint_full write_vector_uint_eq write_string_eq
  List.append_nil List.nil_append

theorem toList_ofFn_getD {α : Type} [Inhabited α] {n : Nat} (v : Vector α n) (z : α) :
    (Vector.ofFn fun i : Fin n => v.toList.getD i z) = v := by
  ext i hi
  simp

@[wr] theorem write_code4 (t : Arr4) : write_array_uint8_4 t = ⟨code4 t, .ok 32⟩ := by
  rw [write_array_eq]; simp [code4]

@[wr] theorem write_arr_eq {w n : Nat} (v : Vector (BitVec w) n) : write_arr v = ⟨vbits v, .ok (w * n)⟩ := by
  rw [write_arr, writeList_eq _ bits _ (by intro x _; simp), flatMap_bits_length, vbits]; simp

@[wr] theorem write_arr_int_eq {w n : Nat} (v : Vector (BitVec w) n) (h : 0 < w) :
    write_arr_int v = ⟨vbits v, .ok (w * n)⟩ := by
  rw [write_arr_int, writeList_eq _ bits _ (by intro x _; rw [write_int_full x h, bits_length]),
    flatMap_bits_length, vbits]; simp

@[wr] theorem write_int_bits {w : Nat} (val : BitVec w) (h0 : 0 < w) : write_int val = ⟨bits val, .ok w⟩ :=
  write_int_full val h0

@[wr] theorem write_uint_ubits {w : Nat} (val : BitVec w) (size : Nat) (h : size ≤ w) :
    write_uint val size = ⟨ubits size val, .ok size⟩ := write_uint_le val size h

@[wr] theorem write_int_sbits {w : Nat} (val : BitVec w) (size : Nat) (h0 : 0 < size) (h : size ≤ w) :
    write_int val size = ⟨sbits size val, .ok size⟩ := write_int_eq val size h0 h

@[wr] theorem write_bool_bbit (b : Bool) : write_bool b = ⟨bbit b, .ok 1⟩ := write_bool_eq b

@[wr] theorem writeVersionAndFlag_eq (b : FullBox) : b.writeVersionAndFlag = ⟨fbits b, .ok 32⟩ := by
  simp [FullBox.writeVersionAndFlag, fbits]

@[wr] theorem write_count {w : Nat} (n : Nat) : write_uint (BitVec.ofNat w n) = ⟨cbits w n, .ok w⟩ := by
  rw [write_uint_full, cbits, bits, BitVec.toNat_ofNat, natBits_mod]

@[wr] theorem bits_ofNat (w n : Nat) : bits (BitVec.ofNat w n) = cbits w n := by
  rw [cbits, bits, BitVec.toNat_ofNat, natBits_mod]

namespace R
variable {β : Type}

attribute [rd] R.bind_eq R.pure_eq R.ret_bind R.throw_bind R.run_ret R.run_throw R.run_offsetToEnd
  R.run_tellg R.bind_assoc' List.append_assoc

@[rd] theorem rd_uint (w : Nat) (v : BitVec w) (f : Nat × BitVec w → R β) (d : List Byte)
    (rest : List Bool) (h0 : 0 < w) (hw : w ≤ 64) :
    ((read_uint w).bind f).run d (bits v ++ rest) = (f (w, v)).run d rest :=
  run_read_uint_full w v f d rest h0 hw

@[rd] theorem rd_uint_last (w : Nat) (v : BitVec w) (f : Nat × BitVec w → R β) (d : List Byte)
    (h0 : 0 < w) (hw : w ≤ 64) :
    ((read_uint w).bind f).run d (bits v) = (f (w, v)).run d [] := by
  have := run_read_uint_full w v f d [] h0 hw
  rwa [List.append_nil] at this

@[rd] theorem rd_count (w n : Nat) (f : Nat × BitVec w → R β) (d : List Byte)
    (rest : List Bool) (h0 : 0 < w) (hw : w ≤ 64) :
    ((read_uint w).bind f).run d (cbits w n ++ rest) = (f (w, BitVec.ofNat w n)).run d rest := by
  rw [cbits, run_read_uint w w n f d rest h0 hw]
  congr 3
  apply BitVec.eq_of_toNat_eq; simp

@[rd] theorem rd_ubits (w n : Nat) (v : BitVec w) (f : Nat × BitVec w → R β) (d : List Byte)
    (rest : List Bool) (h0 : 0 < n) (hn : n ≤ 64) (hv : v.toNat < 2 ^ n) :
    ((read_uint w n).bind f).run d (ubits n v ++ rest) = (f (n, v)).run d rest := by
  rw [ubits, run_read_uint w n v.toNat f d rest h0 hn, Nat.mod_eq_of_lt hv, BitVec.ofNat_toNat, BitVec.setWidth_eq]

@[rd] theorem rd_int (w : Nat) (v : BitVec w) (f : Nat × BitVec w → R β) (d : List Byte)
    (rest : List Bool) (h0 : 0 < w) (hw : w ≤ 64) :
    ((read_int w).bind f).run d (bits v ++ rest) = (f (w, v)).run d rest :=
  run_read_int_full w v f d rest h0 hw

/-- `v` is representable as an `n`-bit two's complement number. -/
def _root_.Mp4.SFits {w : Nat} (n : Nat) (v : BitVec w) : Prop :=
  -(2 ^ (n - 1) : Int) ≤ v.toInt ∧ v.toInt < 2 ^ (n - 1)

@[rd] theorem rd_sbits (w n : Nat) (v : BitVec w) (f : Nat × BitVec w → R β) (d : List Byte)
    (rest : List Bool) (h0 : 0 < n) (hn : n ≤ w) (hw : w ≤ 64) (hv : SFits n v) :
    ((read_int w n).bind f).run d (sbits n v ++ rest) = (f (n, v)).run d rest :=
  run_read_int v n f d rest h0 hn hw hv.1 hv.2

@[rd] theorem rd_bool (f : Nat × Bool → R β) (d : List Byte) (b : Bool) (rest : List Bool) :
    (read_bool.bind f).run d (bbit b ++ rest) = (f (1, b)).run d rest := run_read_bool f d b rest

@[rd] theorem rd_fbits (b : FullBox) (f : Nat × FullBox → R β) (d : List Byte) (rest : List Bool) :
    (FullBox.readVersionAndFlag.bind f).run d (fbits b ++ rest) = (f (32, b)).run d rest := by
  simp only [FullBox.readVersionAndFlag, fbits, rd, Nat.reduceLT, Nat.reduceLeDiff]

@[rd] theorem rd_arr {w n : Nat} (v : Vector (BitVec w) n) (f : Nat × Vector (BitVec w) n → R β) (d : List Byte)
    (rest : List Bool) (h0 : 0 < w) (hw : w ≤ 64) :
    ((read_arr w n).bind f).run d (vbits v ++ rest) = (f (w * n, v)).run d rest := by
  simp only [read_arr, bind_eq, pure_eq, bind_assoc', ret_bind, vbits]
  rw [run_readN (read_uint w) bits _ d v.toList n (by simp) rest
    (by intro x _ rest; rw [read_uint_run w x d rest h0 hw, bits_length]), flatMap_bits_length]
  simp only [toList_ofFn_getD]
  simp

@[rd] theorem rd_arr_int {w n : Nat} (v : Vector (BitVec w) n) (f : Nat × Vector (BitVec w) n → R β) (d : List Byte)
    (rest : List Bool) (h0 : 0 < w) (hw : w ≤ 64) :
    ((read_arr_int w n).bind f).run d (vbits v ++ rest) = (f (w * n, v)).run d rest := by
  simp only [read_arr_int, bind_eq, pure_eq, bind_assoc', ret_bind, vbits]
  have : ∀ x (rest : List Bool), (read_int w).run d (bits x ++ rest) = .ok (((bits x).length, x), rest) := by
    intro x rest
    have := run_read_int_full w x .ret d rest h0 hw
    rw [bind_ret] at this
    rw [this, bits_length]; rfl
  rw [run_readN (read_int w) bits _ d v.toList n (by simp) rest (by intro x _ rest; exact this x rest),
    flatMap_bits_length]
  simp only [toList_ofFn_getD]
  simp

@[rd] theorem rd_array4 (v : Arr4) (f : Nat × Arr4 → R β) (d : List Byte) (rest : List Bool) :
    (read_array_uint8_4.bind f).run d (bytesBits [v.b0, v.b1, v.b2, v.b3] ++ rest) = (f (32, v)).run d rest :=
  run_read_array v f d rest

@[rd] theorem rd_code4 (v : Arr4) (f : Nat × Arr4 → R β) (d : List Byte) (rest : List Bool) :
    (read_array_uint8_4.bind f).run d (code4 v ++ rest) = (f (32, v)).run d rest := by
  rw [← rd_array4 v f d rest]; simp [code4]

@[rd] theorem rd_vector {w : Nat} (l : List (BitVec w)) (n : Nat) (f : Nat × List (BitVec w) → R β)
    (d : List Byte) (rest : List Bool) (hn : n = l.length) (h0 : 0 < w) (hw : w ≤ 64) :
    ((read_vector_uint w n).bind f).run d (l.flatMap bits ++ rest) = (f (w * l.length, l)).run d rest :=
  run_read_vector_uint l n f d rest hn h0 hw

@[rd] theorem rd_vector_end {w : Nat} (l : List (BitVec w)) (n : Nat) (f : Nat × List (BitVec w) → R β)
    (d : List Byte) (hn : n = l.length) (h0 : 0 < w) (hw : w ≤ 64) :
    ((read_vector_uint w n).bind f).run d (l.flatMap bits) = (f (w * l.length, l)).run d [] :=
  run_read_vector_uint_end l n f d hn h0 hw

/-- ISO/IEC 14496-1 expandable size field in four bytes: continuation bit and seven bits of the value each. -/
def _root_.Mp4.lenBits (v : BitVec 32) : List Bool :=
  [true] ++ natBits 7 (v.toNat / 2 ^ 21) ++ [true] ++ natBits 7 (v.toNat / 2 ^ 14) ++
  [true] ++ natBits 7 (v.toNat / 2 ^ 7) ++ [false] ++ natBits 7 v.toNat

theorem lenBits_eq (v : BitVec 32) : bytesBits (uvarintBytes v.toNat 4) = lenBits v := by
  have key : ∀ y : Nat, y < 128 → ∀ m : Bool,
      bits (BitVec.ofNat 8 (y + if m then 128 else 0)) = [m] ++ natBits 7 y := by decide +kernel
  have k1 : ∀ x : Nat, bits (BitVec.ofNat 8 (x % 128 + 128)) = [true] ++ natBits 7 x := by
    intro x
    have := key (x % 128) (Nat.mod_lt _ (by decide)) true
    simp only [↓reduceIte] at this
    rw [this, show (128 : Nat) = 2 ^ 7 from rfl, natBits_mod]
  have k2 : ∀ x : Nat, bits (BitVec.ofNat 8 (x % 128)) = [false] ++ natBits 7 x := by
    intro x
    have := key (x % 128) (Nat.mod_lt _ (by decide)) false
    simp only [Bool.false_eq_true, ↓reduceIte, Nat.add_zero] at this
    rw [this, show (128 : Nat) = 2 ^ 7 from rfl, natBits_mod]
  simp only [uvarintBytes, bytesBits_cons, bytesBits_nil, Nat.reduceMul, Nat.reduceEqDiff, ↓reduceIte, k1,
    Nat.add_zero, Nat.mul_zero, Nat.pow_zero, Nat.div_one, k2, lenBits, List.append_nil, List.append_assoc]

@[ll] theorem _root_.Mp4.lenBits_length (v : BitVec 32) : (lenBits v).length = 32 := by simp [lenBits]

@[wr] theorem _root_.Mp4.write_uvarint_lenBits (v : BitVec 32) : write_uvarint v = ⟨lenBits v, .ok 32⟩ := by
  rw [write_uvarint, writeUvarintGo_eq, uvarint_size]
  have : (v.setWidth 64).toNat = v.toNat := by
    rw [BitVec.toNat_setWidth]
    exact Nat.mod_eq_of_lt (Nat.lt_of_lt_of_le v.isLt (by decide))
  rw [this, show (32 / 8) = 4 from rfl, lenBits_eq]
  simp

@[rd] theorem rd_uvarint (v : BitVec 32) (f : Nat × BitVec 32 → R β) (d : List Byte) (rest : List Bool)
    (hv : v.toNat < 2 ^ 28) :
    ((read_uvarint 32).bind f).run d (lenBits v ++ rest) = (f (32, v)).run d rest := by
  rw [read_uvarint]
  simp only [bind_eq, bind_assoc', run_offsetToEnd]
  have h : (readUvarintGo 32 ((lenBits v ++ rest).length / 8 + 1) 0 0).run d (lenBits v ++ rest)
      = .ok ((32, v), rest) := by
    have := run_readUvarintGo 32 v.toNat 4 ((lenBits v ++ rest).length / 8 + 1) (by decide)
      (by simp [lenBits_length]; omega) 0 0 d rest (by simp; omega)
    rw [lenBits_eq] at this
    rw [this]
    simp [Nat.mod_eq_of_lt hv]
  rw [run_bind_ok h]

end R
end Mp4

namespace Mp4

theorem wr_list {α : Type} (f : α → W Nat) (enc : α → List Bool) (n : Nat) (l : List α)
    (h : ∀ x ∈ l, f x = ⟨enc x, .ok n⟩) : writeList f l = ⟨l.flatMap enc, .ok (n * l.length)⟩ := by
  induction l with
  | nil => rfl
  | cons x l ih =>
    rw [writeList, h x (by simp), ih (fun y hy => h y (by simp [hy]))]
    simp [Nat.mul_add, Nat.add_comm]

theorem ll_list {α : Type} (enc : α → List Bool) (n : Nat) (l : List α)
    (h : ∀ x ∈ l, (enc x).length = n) : (l.flatMap enc).length = n * l.length := by
  induction l with
  | nil => rfl
  | cons x l ih =>
    rw [List.flatMap_cons, List.length_append, h x (by simp), ih (fun y hy => h y (by simp [hy])), List.length_cons,
      Nat.mul_add, Nat.mul_one, Nat.add_comm]

theorem readN_list {α : Type} (p : R (Nat × α)) (enc : α → List Bool) (n : Nat) (d : List Byte) (l : List α)
    (rest : List Bool) (h : ∀ x ∈ l, ∀ rest, p.run d (enc x ++ rest) = .ok ((n, x), rest)) :
    (readN p l.length).run d (l.flatMap enc ++ rest) = .ok ((n * l.length, l), rest) := by
  induction l with
  | nil => rfl
  | cons x l ih =>
    rw [List.length_cons, readN]
    simp only [R.bind_eq, R.pure_eq, List.flatMap_cons, List.append_assoc]
    rw [R.run_bind_ok (h x (by simp) _)]
    simp only
    rw [R.run_bind_ok (ih (fun y hy => h y (by simp [hy])))]
    simp [Nat.mul_add, Nat.add_comm]

theorem rd_list {α β : Type} (p : R (Nat × α)) (enc : α → List Bool) (n : Nat) (l : List α)
    (k : Nat) (f : Nat × List α → R β) (d : List Byte) (rest : List Bool) (hk : k = l.length)
    (h : ∀ x ∈ l, ∀ rest, p.run d (enc x ++ rest) = .ok ((n, x), rest)) :
    ((readN p k).bind f).run d (l.flatMap enc ++ rest) = (f (n * l.length, l)).run d rest := by
  subst hk
  exact R.run_bind_ok (readN_list p enc n d l rest h)

theorem rd_list_end {α β : Type} (p : R (Nat × α)) (enc : α → List Bool) (n : Nat) (l : List α)
    (k : Nat) (f : Nat × List α → R β) (d : List Byte) (hk : k = l.length)
    (h : ∀ x ∈ l, ∀ rest, p.run d (enc x ++ rest) = .ok ((n, x), rest)) :
    ((readN p k).bind f).run d (l.flatMap enc) = (f (n * l.length, l)).run d [] := by
  have := rd_list p enc n l k f d [] hk h
  rwa [List.append_nil] at this

end Mp4

namespace Mp4

/-- `if (c) { wbits += m; }` -/
def W.opt (c : Bool) (m : W Nat) : W Nat := if c then m else pure 0

/-- `if (c) { rbits += p(&var); }` where `var` held `old`. -/
def R.opt {α : Type} (c : Bool) (p : R (Nat × α)) (old : α) : R (Nat × α) := if c then p else pure (0, old)

/-- Bits that are present only under a condition. -/
def onlyIf (c : Bool) (l : List Bool) : List Bool := if c then l else []

@[wr] theorem W.opt_ok (c : Bool) (l : List Bool) (n : Nat) :
    W.opt c ⟨l, .ok n⟩ = ⟨onlyIf c l, .ok (if c then n else 0)⟩ := by cases c <;> rfl

@[ll] theorem onlyIf_length (c : Bool) (l : List Bool) : (onlyIf c l).length = if c then l.length else 0 := by
  cases c <;> rfl

theorem R.rd_opt {α β : Type} (c : Bool) (p : R (Nat × α)) (old : α) (f : Nat × α → R β) (d : List Byte)
    (l : List Bool) (n : Nat) (v : α) (rest : List Bool)
    (h : (p.bind f).run d (l ++ rest) = (f (n, v)).run d rest) :
    ((R.opt c p old).bind f).run d (onlyIf c l ++ rest)
      = (f (if c then n else 0, if c then v else old)).run d rest := by
  cases c
  · rfl
  · simpa [R.opt, onlyIf] using h

@[rd] theorem R.rd_opt_uint {β : Type} (c : Bool) (w : Nat) (v old : BitVec w) (f : Nat × BitVec w → R β)
    (d : List Byte) (rest : List Bool) (h0 : 0 < w) (hw : w ≤ 64) :
    ((R.opt c (read_uint w) old).bind f).run d (onlyIf c (bits v) ++ rest)
      = (f (if c then w else 0, if c then v else old)).run d rest :=
  R.rd_opt c _ old f d _ w v rest (R.rd_uint w v f d rest h0 hw)

@[rd] theorem R.rd_opt_int {β : Type} (c : Bool) (w : Nat) (v old : BitVec w) (f : Nat × BitVec w → R β)
    (d : List Byte) (rest : List Bool) (h0 : 0 < w) (hw : w ≤ 64) :
    ((R.opt c (read_int w) old).bind f).run d (onlyIf c (bits v) ++ rest)
      = (f (if c then w else 0, if c then v else old)).run d rest :=
  R.rd_opt c _ old f d _ w v rest (R.rd_int w v f d rest h0 hw)

@[rd] theorem R.rd_opt_sbits {β : Type} (c : Bool) (w n : Nat) (v old : BitVec w) (f : Nat × BitVec w → R β)
    (d : List Byte) (rest : List Bool) (h0 : 0 < n) (hn : n ≤ w) (hw : w ≤ 64) (hv : SFits n v) :
    ((R.opt c (read_int w n) old).bind f).run d (onlyIf c (sbits n v) ++ rest)
      = (f (if c then n else 0, if c then v else old)).run d rest :=
  R.rd_opt c _ old f d _ n v rest (R.rd_sbits w n v f d rest h0 hn hw hv)

end Mp4

namespace Mp4

/-! ### lists of entries of varying size -/

theorem wr_listv {α : Type} (f : α → W Nat) (enc : α → List Bool) (sz : α → Nat) (l : List α)
    (h : ∀ x ∈ l, f x = ⟨enc x, .ok (8 * sz x)⟩) : writeList f l = ⟨l.flatMap enc, .ok (8 * (l.map sz).sum)⟩ := by
  induction l with
  | nil => rfl
  | cons x l ih =>
    rw [writeList, h x (by simp), ih (fun y hy => h y (by simp [hy]))]
    simp [Nat.mul_add]

theorem ll_listv {α : Type} (enc : α → List Bool) (sz : α → Nat) (l : List α)
    (h : ∀ x ∈ l, (enc x).length = 8 * sz x) : (l.flatMap enc).length = 8 * (l.map sz).sum := by
  induction l with
  | nil => rfl
  | cons x l ih =>
    rw [List.flatMap_cons, List.length_append, h x (by simp), ih (fun y hy => h y (by simp [hy])), List.map_cons,
      List.sum_cons, Nat.mul_add]

theorem readN_listv {α : Type} (p : R (Nat × α)) (enc : α → List Bool) (sz : α → Nat) (d : List Byte) (l : List α)
    (rest : List Bool) (h : ∀ x ∈ l, ∀ rest, p.run d (enc x ++ rest) = .ok ((8 * sz x, x), rest)) :
    (readN p l.length).run d (l.flatMap enc ++ rest) = .ok ((8 * (l.map sz).sum, l), rest) := by
  induction l with
  | nil => rfl
  | cons x l ih =>
    rw [List.length_cons, readN]
    simp only [R.bind_eq, R.pure_eq, List.flatMap_cons, List.append_assoc]
    rw [R.run_bind_ok (h x (by simp) _)]
    simp only
    rw [R.run_bind_ok (ih (fun y hy => h y (by simp [hy])))]
    simp [Nat.mul_add]

theorem rd_listv {α β : Type} (p : R (Nat × α)) (enc : α → List Bool) (sz : α → Nat) (l : List α)
    (k : Nat) (f : Nat × List α → R β) (d : List Byte) (rest : List Bool) (hk : k = l.length)
    (h : ∀ x ∈ l, ∀ rest, p.run d (enc x ++ rest) = .ok ((8 * sz x, x), rest)) :
    ((readN p k).bind f).run d (l.flatMap enc ++ rest) = (f (8 * (l.map sz).sum, l)).run d rest := by
  subst hk
  exact R.run_bind_ok (readN_listv p enc sz d l rest h)

theorem rd_listv_end {α β : Type} (p : R (Nat × α)) (enc : α → List Bool) (sz : α → Nat) (l : List α)
    (k : Nat) (f : Nat × List α → R β) (d : List Byte) (hk : k = l.length)
    (h : ∀ x ∈ l, ∀ rest, p.run d (enc x ++ rest) = .ok ((8 * sz x, x), rest)) :
    ((readN p k).bind f).run d (l.flatMap enc) = (f (8 * (l.map sz).sum, l)).run d [] := by
  have := rd_listv p enc sz l k f d [] hk h
  rwa [List.append_nil] at this

/-- A count cast to a `w`-bit type and written in `n` bits. -/
theorem ubits_ofNat (w n k : Nat) (h : n ≤ w) : ubits n (BitVec.ofNat w k) = cbits n k := by
  rw [ubits, cbits, BitVec.toNat_ofNat, natBits_mod_le _ _ _ h]

theorem R.rd_count_narrow {β : Type} (w n k : Nat) (f : Nat × BitVec w → R β) (d : List Byte)
    (rest : List Bool) (h0 : 0 < n) (hn : n ≤ 64) (hk : k < 2 ^ n) :
    ((read_uint w n).bind f).run d (cbits n k ++ rest) = (f (n, BitVec.ofNat w k)).run d rest := by
  rw [cbits, run_read_uint w n k f d rest h0 hn, Nat.mod_eq_of_lt hk]

@[rd] theorem R.rd_ubits_last {β : Type} (w n : Nat) (v : BitVec w) (f : Nat × BitVec w → R β) (d : List Byte)
    (h0 : 0 < n) (hn : n ≤ 64) (hv : v.toNat < 2 ^ n) :
    ((read_uint w n).bind f).run d (ubits n v) = (f (n, v)).run d [] := by
  have := R.rd_ubits w n v f d [] h0 hn hv
  rwa [List.append_nil] at this

end Mp4
