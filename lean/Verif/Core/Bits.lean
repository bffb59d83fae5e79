/-!
# Bits and bytes

Mathematical notions shared by the model and the specifications: the `n` low bits of a number,
most significant first, and the number denoted by a bit list.  Nothing here models code.
-/

namespace Mp4

/-- `std::uint8_t`. -/
abbrev Byte := BitVec 8

/-- The `n` low bits of `x`, most significant first. -/
def natBits : Nat → Nat → List Bool
  | 0, _ => []
  | n + 1, x => x.testBit n :: natBits n x

/-- The number denoted by a bit list, most significant bit first. -/
def ofBits (l : List Bool) : Nat := l.foldl (fun a b => 2 * a + b.toNat) 0

/-- All bits of a bit vector, most significant first. -/
def bits {w : Nat} (v : BitVec w) : List Bool := natBits w v.toNat

/-- The bits of a byte string, most significant bit of each byte first. -/
def bytesBits (l : List Byte) : List Bool := l.flatMap bits

@[simp] theorem natBits_length (n x : Nat) : (natBits n x).length = n := by
  induction n with
  | zero => rfl
  | succ n ih => simp [natBits, ih]

@[simp] theorem bits_length {w : Nat} (v : BitVec w) : (bits v).length = w := by simp [bits]

@[simp] theorem bytesBits_nil : bytesBits [] = [] := rfl

@[simp] theorem bytesBits_cons (b : Byte) (l : List Byte) :
    bytesBits (b :: l) = bits b ++ bytesBits l := by simp [bytesBits]

@[simp] theorem bytesBits_append (l m : List Byte) :
    bytesBits (l ++ m) = bytesBits l ++ bytesBits m := by simp [bytesBits]

@[simp] theorem bytesBits_length (l : List Byte) : (bytesBits l).length = 8 * l.length := by
  induction l with
  | nil => rfl
  | cons b l ih => simp [ih]; omega

theorem ofBits_foldl (l : List Bool) (a : Nat) :
    l.foldl (fun a b => 2 * a + b.toNat) a = a * 2 ^ l.length + ofBits l := by
  unfold ofBits
  induction l generalizing a with
  | nil => simp
  | cons b l ih =>
    simp only [List.foldl_cons, List.length_cons]
    rw [ih, ih (2 * 0 + b.toNat)]
    rw [Nat.pow_succ]
    have : (2 * a + b.toNat) * 2 ^ l.length = a * (2 ^ l.length * 2) + b.toNat * 2 ^ l.length := by
      rw [Nat.add_mul]
      congr 1
      rw [Nat.mul_comm 2 a, Nat.mul_assoc, Nat.mul_comm 2]
    rw [this]; simp [Nat.add_assoc]

@[simp] theorem ofBits_nil : ofBits [] = 0 := rfl

theorem ofBits_cons (b : Bool) (l : List Bool) :
    ofBits (b :: l) = b.toNat * 2 ^ l.length + ofBits l := by
  have := ofBits_foldl l b.toNat
  simpa [ofBits] using this

theorem ofBits_append (l m : List Bool) : ofBits (l ++ m) = ofBits l * 2 ^ m.length + ofBits m := by
  have : ofBits (l ++ m) = m.foldl (fun a b => 2 * a + b.toNat) (ofBits l) := by
    simp [ofBits, List.foldl_append]
  rw [this, ofBits_foldl]

theorem ofBits_lt (l : List Bool) : ofBits l < 2 ^ l.length := by
  induction l with
  | nil => simp
  | cons b l ih =>
    rw [ofBits_cons, List.length_cons, Nat.pow_succ]
    cases b <;> simp <;> omega

theorem ofBits_natBits (n x : Nat) : ofBits (natBits n x) = x % 2 ^ n := by
  induction n with
  | zero => simp [natBits, Nat.mod_one]
  | succ n ih =>
    rw [natBits, ofBits_cons, ih, natBits_length]
    rw [Nat.mod_pow_succ, Nat.testBit_eq_decide_div_mod_eq]
    have h2 : x / 2 ^ n % 2 < 2 := Nat.mod_lt _ (by decide)
    have : (decide (x / 2 ^ n % 2 = 1)).toNat = x / 2 ^ n % 2 := by
      rcases (by omega : x / 2 ^ n % 2 = 0 ∨ x / 2 ^ n % 2 = 1) with h | h <;> simp [h]
    rw [this, Nat.mul_comm, Nat.add_comm]

theorem natBits_mod (n x : Nat) : natBits n (x % 2 ^ n) = natBits n x := by
  have key : ∀ m, m ≤ n → natBits m (x % 2 ^ n) = natBits m x := by
    intro m
    induction m with
    | zero => intro _; rfl
    | succ m ih =>
      intro h
      rw [natBits, natBits, ih (by omega)]
      congr 1
      rw [Nat.testBit_mod_two_pow]
      have : m < n := by omega
      simp [this]
  exact key n (Nat.le_refl n)

theorem natBits_mod_le (n m x : Nat) (h : n ≤ m) : natBits n (x % 2 ^ m) = natBits n x := by
  rw [← natBits_mod n (x % 2 ^ m), Nat.mod_mod_of_dvd _ (Nat.pow_dvd_pow 2 h), natBits_mod]

theorem natBits_ofBits (l : List Bool) : natBits l.length (ofBits l) = l := by
  induction l with
  | nil => rfl
  | cons b l ih =>
    rw [List.length_cons, natBits]
    have hlt := ofBits_lt l
    have h1 : (ofBits (b :: l)).testBit l.length = b := by
      rw [ofBits_cons]
      cases b
      · simp [Nat.testBit_lt_two_pow hlt]
      · simp only [Bool.toNat_true, Nat.one_mul]
        rw [Nat.testBit_two_pow_add_eq, Nat.testBit_lt_two_pow hlt]; rfl
    have h2 : natBits l.length (ofBits (b :: l)) = l := by
      rw [← natBits_mod, ofBits_cons]
      have : (b.toNat * 2 ^ l.length + ofBits l) % 2 ^ l.length = ofBits l := by
        rw [Nat.mul_comm, Nat.mul_add_mod, Nat.mod_eq_of_lt hlt]
      rw [this, ih]
    rw [h1, h2]

/-- Splitting a field at a bit boundary. -/
theorem natBits_add (a b x : Nat) : natBits (a + b) x = natBits a (x >>> b) ++ natBits b x := by
  induction a with
  | zero => simp [natBits]
  | succ a ih =>
    have : a + 1 + b = (a + b) + 1 := by omega
    rw [this, natBits, natBits, ih]
    simp [Nat.testBit_shiftRight, Nat.add_comm]

theorem natBits_eq_range (n x : Nat) :
    natBits n x = (List.range n).map (fun i => x.testBit (n - 1 - i)) := by
  induction n with
  | zero => rfl
  | succ n ih =>
    rw [natBits, ih, List.range_succ_eq_map]
    simp only [List.map_cons, List.map_map]
    congr 1
    apply List.map_congr_left
    intro i hi
    simp only [Function.comp_apply]
    congr 1
    omega

@[simp] theorem ofBits_bits {w : Nat} (v : BitVec w) : ofBits (bits v) = v.toNat := by
  rw [bits, ofBits_natBits, Nat.mod_eq_of_lt v.isLt]

theorem bits_ofBits (l : List Bool) : bits (BitVec.ofNat l.length (ofBits l)) = l := by
  rw [bits, BitVec.toNat_ofNat, natBits_mod, natBits_ofBits]

theorem bits_inj {w : Nat} {v u : BitVec w} (h : bits v = bits u) : v = u := by
  have : ofBits (bits v) = ofBits (bits u) := by rw [h]
  rw [ofBits_bits, ofBits_bits] at this
  exact BitVec.eq_of_toNat_eq this

theorem bytesBits_inj {l m : List Byte} (h : bytesBits l = bytesBits m) : l = m := by
  induction l generalizing m with
  | nil =>
    cases m with
    | nil => rfl
    | cons b m =>
      have := congrArg List.length h
      simp at this; omega
  | cons a l ih =>
    cases m with
    | nil =>
      have := congrArg List.length h
      simp at this
    | cons b m =>
      rw [bytesBits_cons, bytesBits_cons] at h
      have hl : (bits a).length = (bits b).length := by simp
      obtain ⟨h1, h2⟩ := List.append_inj h hl
      rw [bits_inj h1, ih h2]

theorem bytesBits_drop (l : List Byte) (n : Nat) :
    bytesBits (l.drop n) = (bytesBits l).drop (8 * n) := by
  induction l generalizing n with
  | nil => simp
  | cons b l ih =>
    cases n with
    | zero => simp
    | succ n =>
      rw [List.drop_succ_cons, ih, bytesBits_cons]
      have : 8 * (n + 1) = (bits b).length + 8 * n := by simp; omega
      rw [this, ← List.drop_drop, List.drop_left]

theorem bytesBits_take (l : List Byte) (n : Nat) :
    bytesBits (l.take n) = (bytesBits l).take (8 * n) := by
  induction l generalizing n with
  | nil => simp
  | cons b l ih =>
    cases n with
    | zero => simp
    | succ n =>
      rw [List.take_succ_cons, bytesBits_cons, bytesBits_cons, ih]
      have : 8 * (n + 1) = (bits b).length + 8 * n := by simp; omega
      rw [this, List.take_length_add_append]

/-- Regroup a bit list into bytes; an incomplete last group is dropped. -/
def toBytes : List Bool → List Byte
  | a :: b :: c :: d :: e :: f :: g :: h :: t =>
    BitVec.ofNat 8 (ofBits [a, b, c, d, e, f, g, h]) :: toBytes t
  | _ => []

theorem toBytes_bits_append (b : Byte) (t : List Bool) : toBytes (bits b ++ t) = b :: toBytes t := by
  have h : ∀ x0 x1 x2 x3 x4 x5 x6 x7 : Bool, bits b = [x0, x1, x2, x3, x4, x5, x6, x7] →
      toBytes (bits b ++ t) = b :: toBytes t := by
    intro x0 x1 x2 x3 x4 x5 x6 x7 hb
    have hv : BitVec.ofNat 8 (ofBits [x0, x1, x2, x3, x4, x5, x6, x7]) = b := by
      rw [← hb, ofBits_bits]; simp
    rw [hb]; simp only [List.cons_append, List.nil_append, toBytes, hv]
  exact h _ _ _ _ _ _ _ _ (by simp only [bits, natBits]; rfl)

@[simp] theorem toBytes_bytesBits (l : List Byte) : toBytes (bytesBits l) = l := by
  induction l with
  | nil => rfl
  | cons b l ih => rw [bytesBits_cons, toBytes_bits_append, ih]

theorem toBytes_bytesBits_append (l : List Byte) (t : List Bool) :
    toBytes (bytesBits l ++ t) = l ++ toBytes t := by
  induction l with
  | nil => rfl
  | cons b l ih => rw [bytesBits_cons, List.append_assoc, toBytes_bits_append, ih]; rfl

theorem bytesBits_toBytes (l : List Bool) (h : l.length % 8 = 0) : bytesBits (toBytes l) = l := by
  induction l using toBytes.induct with
  | case1 a b c d e f g i t ih =>
    rw [toBytes, bytesBits_cons, ih (by simp at h; omega)]
    rw [show bits (BitVec.ofNat 8 (ofBits [a, b, c, d, e, f, g, i])) = [a, b, c, d, e, f, g, i] from
      bits_ofBits [a, b, c, d, e, f, g, i]]
    rfl
  | case2 l hn =>
    rcases l with _ | ⟨a, _ | ⟨b, _ | ⟨c, _ | ⟨d, _ | ⟨e, _ | ⟨f, _ | ⟨g, _ | ⟨i, t⟩⟩⟩⟩⟩⟩⟩⟩
    · rfl
    all_goals first | (simp at h; done) | exact (hn _ _ _ _ _ _ _ _ _ rfl).elim

theorem toBytes_length (l : List Bool) : (toBytes l).length = l.length / 8 := by
  induction l using toBytes.induct with
  | case1 a b c d e f g i t ih => rw [toBytes]; simp only [List.length_cons, ih]; omega
  | case2 l hn =>
    rcases l with _ | ⟨a, _ | ⟨b, _ | ⟨c, _ | ⟨d, _ | ⟨e, _ | ⟨f, _ | ⟨g, _ | ⟨i, t⟩⟩⟩⟩⟩⟩⟩⟩
    all_goals first | (simp [toBytes]; done) | exact (hn _ _ _ _ _ _ _ _ _ rfl).elim

end Mp4
