import Verif.Model.Endian
import Verif.Model.BoxType
import Verif.Model.FullBox
import Verif.Model.Time
import Verif.Model.Language
import Verif.Model.BoxMap

/-!
# C07, C08, C09, C49, C50, C51
-/

namespace Mp4

/-! ## C07 endian -/

theorem be_to_uint32_toNat (a b c d : Byte) :
    (be_to_uint32 a b c d).toNat = a.toNat * 2 ^ 24 + b.toNat * 2 ^ 16 + c.toNat * 2 ^ 8 + d.toNat := by
  have := a.isLt; have := b.isLt; have := c.isLt; have := d.isLt
  simp only [be_to_uint32, BitVec.toNat_add, BitVec.toNat_shiftLeft, BitVec.toNat_setWidth, Nat.shiftLeft_eq]
  omega

theorem be_to_uint64_toNat (a b c d e f g h : Byte) :
    (be_to_uint64 a b c d e f g h).toNat =
      a.toNat * 2 ^ 56 + b.toNat * 2 ^ 48 + c.toNat * 2 ^ 40 + d.toNat * 2 ^ 32 +
      e.toNat * 2 ^ 24 + f.toNat * 2 ^ 16 + g.toNat * 2 ^ 8 + h.toNat := by
  have := a.isLt; have := b.isLt; have := c.isLt; have := d.isLt
  have := e.isLt; have := f.isLt; have := g.isLt; have := h.isLt
  simp only [be_to_uint64, BitVec.toNat_add, BitVec.toNat_shiftLeft, BitVec.toNat_setWidth, Nat.shiftLeft_eq]
  omega

theorem byte_of32 (i : BitVec 32) (k : Nat) :
    (((i >>> k) &&& 0xff#32).setWidth 8 : Byte) = BitVec.ofNat 8 (i.toNat / 2 ^ k) := by
  apply BitVec.eq_of_toNat_eq
  rw [BitVec.toNat_setWidth, BitVec.toNat_and, BitVec.toNat_ushiftRight, Nat.shiftRight_eq_div_pow,
    show (0xff#32).toNat = 2 ^ 8 - 1 from rfl, Nat.and_two_pow_sub_one_eq_mod, Nat.mod_mod, BitVec.toNat_ofNat]

theorem byte_of64 (i : BitVec 64) (k : Nat) :
    (((i >>> k) &&& 0xff#64).setWidth 8 : Byte) = BitVec.ofNat 8 (i.toNat / 2 ^ k) := by
  apply BitVec.eq_of_toNat_eq
  rw [BitVec.toNat_setWidth, BitVec.toNat_and, BitVec.toNat_ushiftRight, Nat.shiftRight_eq_div_pow,
    show (0xff#64).toNat = 2 ^ 8 - 1 from rfl, Nat.and_two_pow_sub_one_eq_mod, Nat.mod_mod, BitVec.toNat_ofNat]

theorem uint32_to_be_eq (i : BitVec 32) :
    uint32_to_be i = [BitVec.ofNat 8 (i.toNat / 2 ^ 24), BitVec.ofNat 8 (i.toNat / 2 ^ 16),
      BitVec.ofNat 8 (i.toNat / 2 ^ 8), BitVec.ofNat 8 (i.toNat)] := by
  have h0 := byte_of32 i 0
  simp only [BitVec.ushiftRight_zero, Nat.pow_zero, Nat.div_one] at h0
  simp only [uint32_to_be, byte_of32, h0]

theorem uint64_to_be_eq (i : BitVec 64) :
    uint64_to_be i = [BitVec.ofNat 8 (i.toNat / 2 ^ 56), BitVec.ofNat 8 (i.toNat / 2 ^ 48),
      BitVec.ofNat 8 (i.toNat / 2 ^ 40), BitVec.ofNat 8 (i.toNat / 2 ^ 32),
      BitVec.ofNat 8 (i.toNat / 2 ^ 24), BitVec.ofNat 8 (i.toNat / 2 ^ 16),
      BitVec.ofNat 8 (i.toNat / 2 ^ 8), BitVec.ofNat 8 (i.toNat)] := by
  have h0 := byte_of64 i 0
  simp only [BitVec.ushiftRight_zero, Nat.pow_zero, Nat.div_one] at h0
  simp only [uint64_to_be, byte_of64, h0]

/-- The four bytes of a 32-bit value are its bits, most significant first. -/
theorem uint32_to_be_bits (i : BitVec 32) : bytesBits (uint32_to_be i) = bits i := by
  rw [uint32_to_be_eq]
  simp only [bytesBits_cons, bytesBits_nil, List.append_nil, bits, BitVec.toNat_ofNat]
  rw [natBits_mod, natBits_mod, natBits_mod, natBits_mod]
  rw [show natBits 32 i.toNat = natBits (8 + (8 + (8 + 8))) i.toNat from rfl]
  rw [natBits_add, natBits_add, natBits_add]
  simp only [Nat.shiftRight_eq_div_pow]

theorem uint64_to_be_bits (i : BitVec 64) : bytesBits (uint64_to_be i) = bits i := by
  rw [uint64_to_be_eq]
  simp only [bytesBits_cons, bytesBits_nil, List.append_nil, bits, BitVec.toNat_ofNat, natBits_mod]
  rw [show natBits 64 i.toNat = natBits (8 + (8 + (8 + (8 + (8 + (8 + (8 + 8))))))) i.toNat from rfl]
  simp only [natBits_add, Nat.shiftRight_eq_div_pow]

/-- **C07 (32 bit).** Both directions, and byte 0 is the most significant. -/
theorem C07_endian32 :
    (∀ i : BitVec 32, be_to_uint32_arr (uint32_to_be i) = some i) ∧
    (∀ a b c d : Byte, uint32_to_be (be_to_uint32 a b c d) = [a, b, c, d]) ∧
    (∀ a b c d : Byte,
      (be_to_uint32 a b c d).toNat = a.toNat * 2 ^ 24 + b.toNat * 2 ^ 16 + c.toNat * 2 ^ 8 + d.toNat) := by
  refine ⟨fun i => ?_, fun a b c d => ?_, be_to_uint32_toNat⟩
  · rw [uint32_to_be_eq, be_to_uint32_arr]
    congr 1
    apply BitVec.eq_of_toNat_eq
    rw [be_to_uint32_toNat]
    have := i.isLt
    simp only [BitVec.toNat_ofNat]
    omega
  · have := a.isLt; have := b.isLt; have := c.isLt; have := d.isLt
    rw [uint32_to_be_eq, be_to_uint32_toNat]
    simp only [List.cons.injEq, and_true]
    refine ⟨?_, ?_, ?_, ?_⟩ <;> (apply BitVec.eq_of_toNat_eq; rw [BitVec.toNat_ofNat]; omega)

/-- **C07 (64 bit).** -/
theorem C07_endian64 :
    (∀ i : BitVec 64, be_to_uint64_arr (uint64_to_be i) = some i) ∧
    (∀ a b c d e f g h : Byte, uint64_to_be (be_to_uint64 a b c d e f g h) = [a, b, c, d, e, f, g, h]) ∧
    (∀ a b c d e f g h : Byte, (be_to_uint64 a b c d e f g h).toNat =
      a.toNat * 2 ^ 56 + b.toNat * 2 ^ 48 + c.toNat * 2 ^ 40 + d.toNat * 2 ^ 32 +
      e.toNat * 2 ^ 24 + f.toNat * 2 ^ 16 + g.toNat * 2 ^ 8 + h.toNat) := by
  refine ⟨fun i => ?_, fun a b c d e f g h => ?_, be_to_uint64_toNat⟩
  · rw [uint64_to_be_eq, be_to_uint64_arr]
    congr 1
    apply BitVec.eq_of_toNat_eq
    rw [be_to_uint64_toNat]
    have := i.isLt
    simp only [BitVec.toNat_ofNat]
    omega
  · have := a.isLt; have := b.isLt; have := c.isLt; have := d.isLt
    have := e.isLt; have := f.isLt; have := g.isLt; have := h.isLt
    rw [uint64_to_be_eq, be_to_uint64_toNat]
    simp only [List.cons.injEq, and_true]
    refine ⟨?_, ?_, ?_, ?_, ?_, ?_, ?_, ?_⟩ <;>
      (apply BitVec.eq_of_toNat_eq; rw [BitVec.toNat_ofNat]; omega)

example : be_to_uint32 1 2 3 4 = 0x01020304#32 ∧ uint32_to_be 0x01020304#32 = [1, 2, 3, 4] := by decide

/-! ## C08 language -/

/-- **C08.** Codes with characters in 0x60..0x7f survive packing, and the packed value fits the 15-bit field. -/
theorem C08_language_round_trip (l : Arr3)
    (h0 : 0x60 ≤ l.b0.toNat ∧ l.b0.toNat < 0x80) (h1 : 0x60 ≤ l.b1.toNat ∧ l.b1.toNat < 0x80)
    (h2 : 0x60 ≤ l.b2.toNat ∧ l.b2.toNat < 0x80) :
    decode_language (encode_language l) = l ∧ (encode_language l).toNat < 2 ^ 15 := by
  obtain ⟨a, b, c⟩ := l
  simp only at h0 h1 h2
  have hv : (encode_language ⟨a, b, c⟩).toNat
      = (a.toNat - 0x60) * 1024 + (b.toNat - 0x60) * 32 + (c.toNat - 0x60) := by
    simp only [encode_language, BitVec.toNat_ofInt]
    omega
  have hmask : ∀ x : BitVec 16, (x &&& 0x1f#16).toNat = x.toNat % 32 := by
    intro x
    rw [BitVec.toNat_and, show (0x1f#16).toNat = 2 ^ 5 - 1 from rfl, Nat.and_two_pow_sub_one_eq_mod]
  refine ⟨?_, by rw [hv]; omega⟩
  simp only [decode_language, Arr3.mk.injEq]
  refine ⟨?_, ?_, ?_⟩ <;>
  · apply BitVec.eq_of_toNat_eq
    rw [BitVec.toNat_add, BitVec.toNat_setWidth, hmask]
    simp only [BitVec.toNat_ushiftRight, hv, Nat.shiftRight_eq_div_pow, BitVec.toNat_ofNat]
    omega

/-- C08: every 15-bit packed value is the packing of the code it decodes to. -/
theorem C08_language_onto (e : BitVec 16) (h : e.toNat < 2 ^ 15) :
    encode_language (decode_language e) = e := by
  have hmask : ∀ x : BitVec 16, (x &&& 0x1f#16).toNat = x.toNat % 32 := by
    intro x
    rw [BitVec.toNat_and, show (0x1f#16).toNat = 2 ^ 5 - 1 from rfl, Nat.and_two_pow_sub_one_eq_mod]
  apply BitVec.eq_of_toNat_eq
  simp only [encode_language, decode_language, BitVec.toNat_ofInt, BitVec.toNat_add, BitVec.toNat_setWidth,
    hmask, BitVec.toNat_ushiftRight, Nat.shiftRight_eq_div_pow, BitVec.toNat_ofNat]
  omega

/-- C08: outside the range codes are corrupted ("JPN" in capitals does not come back). -/
theorem C08_language_capital_witness :
    decode_language (encode_language ⟨0x4a, 0x50, 0x4e⟩) ≠ ⟨0x4a, 0x50, 0x4e⟩ := by decide

example : decode_language (encode_language ⟨0x6a, 0x70, 0x6e⟩) = ⟨0x6a, 0x70, 0x6e⟩ := by decide

/-! ## C09 flags -/

theorem getFlags_toNat (b : FullBox) :
    b.getFlags.toNat = b.f0.toNat * 2 ^ 16 + b.f1.toNat * 2 ^ 8 + b.f2.toNat := by
  have h0 := b.f0.isLt; have h1 := b.f1.isLt; have h2 := b.f2.isLt
  simp only [FullBox.getFlags, BitVec.toNat_or, BitVec.toNat_shiftLeft, BitVec.toNat_setWidth]
  have e0 : (b.f0.toNat % 2 ^ 32) <<< 16 % 2 ^ 32 = b.f0.toNat * 2 ^ 16 := by
    rw [Nat.shiftLeft_eq]; omega
  have e1 : (b.f1.toNat % 2 ^ 32) <<< 8 % 2 ^ 32 = b.f1.toNat * 2 ^ 8 := by
    rw [Nat.shiftLeft_eq]; omega
  have e2 : b.f2.toNat % 2 ^ 32 = b.f2.toNat := by omega
  rw [e0, e1, e2]
  have s1 : b.f0.toNat * 2 ^ 16 ||| b.f1.toNat * 2 ^ 8 = b.f0.toNat * 2 ^ 16 + b.f1.toNat * 2 ^ 8 := by
    rw [← Nat.shiftLeft_eq, ← Nat.shiftLeft_add_eq_or_of_lt (by omega), Nat.shiftLeft_eq]
  rw [s1]
  have : b.f0.toNat * 2 ^ 16 + b.f1.toNat * 2 ^ 8 = (b.f0.toNat * 2 ^ 8 + b.f1.toNat) * 2 ^ 8 := by omega
  rw [this, ← Nat.shiftLeft_eq, ← Nat.shiftLeft_add_eq_or_of_lt (by omega)]

/-- **C09 (set/get).** Only the low 24 bits exist; they are stored exactly, and the version is untouched. -/
theorem C09_flags_set_get (b : FullBox) (f : BitVec 32) :
    (b.setFlags f).getFlags = f &&& 0xffffff#32 ∧ (b.setFlags f).version = b.version ∧
    b.setFlags b.getFlags = b := by
  have hgen : ∀ b : FullBox, ∀ f : BitVec 32, (b.setFlags f).getFlags = f &&& 0xffffff#32 := by
    intro b f
    apply BitVec.eq_of_toNat_eq
    rw [getFlags_toNat, BitVec.toNat_and, show (0xffffff#32).toNat = 2 ^ 24 - 1 from rfl,
      Nat.and_two_pow_sub_one_eq_mod]
    have h0 := byte_of32 f 0
    simp only [BitVec.ushiftRight_zero, Nat.pow_zero, Nat.div_one] at h0
    simp only [FullBox.setFlags, byte_of32, h0, BitVec.toNat_ofNat]
    have := f.isLt
    omega
  refine ⟨hgen b f, rfl, ?_⟩
  have h0 := byte_of32 b.getFlags 0
  simp only [BitVec.ushiftRight_zero, Nat.pow_zero, Nat.div_one] at h0
  have hf := getFlags_toNat b
  have := b.f0.isLt; have := b.f1.isLt; have := b.f2.isLt
  obtain ⟨v, f0, f1, f2⟩ := b
  simp only [FullBox.setFlags, byte_of32, h0, FullBox.mk.injEq, true_and]
  refine ⟨?_, ?_, ?_⟩ <;>
  · apply BitVec.eq_of_toNat_eq
    rw [BitVec.toNat_ofNat, hf]
    simp only
    omega

/-- **C09 (add).** Bit `i < 24` of the flags after `addFlag(g)` is set iff it was set or is in `g`. -/
theorem C09_flags_add (b : FullBox) (g : BitVec 32) (i : Nat) (hi : i < 24) :
    (b.addFlag g).getFlags.getLsbD i = (b.getFlags.getLsbD i || g.getLsbD i) := by
  rw [FullBox.addFlag, (C09_flags_set_get b _).1, BitVec.getLsbD_and, BitVec.getLsbD_or]
  have : (0xffffff#32).getLsbD i = true := by
    have key : ∀ i : Nat, i < 24 → (0xffffff#32).getLsbD i = true := by decide
    exact key i hi
  rw [this, Bool.and_true]

/-- **C09 (check).** `checkFlag(g)` is true iff some bit of `g` is set. -/
theorem C09_flags_check (b : FullBox) (g : BitVec 32) :
    b.checkFlag g = true ↔ ∃ i, i < 24 ∧ b.getFlags.getLsbD i = true ∧ g.getLsbD i = true := by
  rw [FullBox.checkFlag, bne_iff_ne, ne_eq]
  constructor
  · intro h
    have hlt : b.getFlags.toNat < 2 ^ 24 := by
      rw [getFlags_toNat]
      have := b.f0.isLt; have := b.f1.isLt; have := b.f2.isLt
      omega
    apply Classical.byContradiction
    intro hn
    apply h
    apply BitVec.eq_of_getLsbD_eq
    intro i hi
    rw [BitVec.getLsbD_and]
    by_cases h24 : i < 24
    · have : ¬ (b.getFlags.getLsbD i = true ∧ g.getLsbD i = true) := fun hc => hn ⟨i, h24, hc⟩
      cases h1 : b.getFlags.getLsbD i <;> cases h2 : g.getLsbD i <;> simp_all
    · have : b.getFlags.getLsbD i = false := by
        rw [BitVec.getLsbD]
        exact Nat.testBit_lt_two_pow (Nat.lt_of_lt_of_le hlt (Nat.pow_le_pow_right (by decide) (by omega)))
      simp [this]
  · rintro ⟨i, _, h1, h2⟩ h0
    have := congrArg (fun v => v.getLsbD i) h0
    simp [h1, h2] at this

/-- **C09 (remove)**: removing a flag that is not set turns it on. -/
theorem C09_flags_remove_witness :
    ∃ (b : FullBox) (g : BitVec 32), b.checkFlag g = false ∧ (b.removeFlag g).checkFlag g = true :=
  ⟨⟨0, 0, 0, 0⟩, 1#32, by decide⟩

/-- **C09 (remove), exact behaviour**: the given bits are toggled. -/
theorem C09_flags_remove_toggles (b : FullBox) (g : BitVec 32) (i : Nat) (hi : i < 24) :
    (b.removeFlag g).getFlags.getLsbD i = (b.getFlags.getLsbD i ^^ g.getLsbD i) := by
  rw [FullBox.removeFlag, (C09_flags_set_get b _).1, BitVec.getLsbD_and, BitVec.getLsbD_xor]
  have : (0xffffff#32).getLsbD i = true := by
    have key : ∀ i : Nat, i < 24 → (0xffffff#32).getLsbD i = true := by decide
    exact key i hi
  rw [this, Bool.and_true]

/-- **C09 (remove)** When every bit of `g` is currently set (for other bits see the witness), after `removeFlag(g)` a bit
`i < 24` is set iff it was set and is not in `g`. -/
theorem C09_flags_remove_set (b : FullBox) (g : BitVec 32)
    (hset : ∀ i, i < 24 → g.getLsbD i = true → b.getFlags.getLsbD i = true) (i : Nat) (hi : i < 24) :
    (b.removeFlag g).getFlags.getLsbD i = (b.getFlags.getLsbD i && !g.getLsbD i) := by
  rw [C09_flags_remove_toggles b g i hi]
  cases hg : g.getLsbD i
  · simp
  · rw [hset i hi hg]; rfl

example : ∃ (b : FullBox) (g : BitVec 32),
    g ≠ 0 ∧ (∀ i, i < 24 → g.getLsbD i = true → b.getFlags.getLsbD i = true) :=
  ⟨⟨0, 0, 0x05, 0x07⟩, 0x401#32, by decide, by decide⟩

/-! ## C49 box registry -/

/-- A history of `addBoxDef` calls. -/
def addAll {κ : Type} (h : List (κ × BoxType × List Byte)) : BoxMap κ :=
  h.foldl (fun m e => m.addBoxDef e.1 e.2.1 e.2.2) BoxMap.empty

theorem find_addBoxDef {κ : Type} (m : BoxMap κ) (f : κ) (t u : BoxType) (vs : List Byte) :
    (m.addBoxDef f t vs).find u = if t = u then some ⟨f, vs⟩ else m.find u := by
  simp only [BoxMap.find, BoxMap.addBoxDef, List.find?_cons]
  by_cases h : t = u
  · simp [h]
  · simp only [h, decide_false, ↓reduceIte]
    congr 1
    induction m.entries with
    | nil => rfl
    | cons e l ih =>
      by_cases he : e.1 = t
      · have : ¬ e.1 = u := fun hu => h (he ▸ hu)
        simp [he, ih, h]
      · simp only [he, decide_false, Bool.not_false, List.filter_cons_of_pos, List.find?_cons, ih]

/-- The last registration of a type in a history. -/
def lastDef {κ : Type} (h : List (κ × BoxType × List Byte)) (t : BoxType) : Option (κ × List Byte) :=
  (h.reverse.find? (fun e => e.2.1 = t)).map (fun e => (e.1, e.2.2))

theorem find_addAll {κ : Type} (h : List (κ × BoxType × List Byte)) (t : BoxType) :
    (addAll h).find t = (lastDef h t).map (fun e => ⟨e.1, e.2⟩) := by
  have key : ∀ (l : List (κ × BoxType × List Byte)),
      (addAll l.reverse).find t = (lastDef l.reverse t).map (fun e => ⟨e.1, e.2⟩) := by
    intro l
    induction l with
    | nil => rfl
    | cons e l ih =>
      simp only [List.reverse_cons, addAll, List.foldl_append, List.foldl_cons, List.foldl_nil]
      rw [find_addBoxDef]
      by_cases he : e.2.1 = t
      · simp [he, lastDef]
      · have ih' := ih
        simp only [addAll] at ih'
        rw [if_neg he, ih']
        simp [lastDef, he]
  have := key h.reverse
  rwa [List.reverse_reverse] at this

/-- **C49.** After any history of registrations, lookup, support and version queries answer from the last registration of the
type. -/
theorem C49_box_map {κ : Type} (h : List (κ × BoxType × List Byte)) (t : BoxType) (ver : Byte) :
    (addAll h).getBoxInstance t =
      (match lastDef h t with | none => .unsupported | some d => .known d.1 t) ∧
    (addAll h).isSupported t = (lastDef h t).isSome ∧
    ((addAll h).isSupportedVersion t ver = true ↔
      ∃ d, lastDef h t = some d ∧ (d.2 = [] ∨ ver ∈ d.2)) ∧
    (match lastDef h t with
      | none => ∃ e, (addAll h).getSupportedVersions t = .error (.exc e)
      | some d => (addAll h).getSupportedVersions t = .ok d.2) := by
  simp only [BoxMap.getBoxInstance, BoxMap.isSupported, BoxMap.isSupportedVersion, BoxMap.getSupportedVersions,
    find_addAll]
  cases hd : lastDef h t with
  | none => simp
  | some d =>
    obtain ⟨f, vs⟩ := d
    cases vs with
    | nil => simp
    | cons v vs =>
      refine ⟨rfl, rfl, ?_, rfl⟩
      simp only [Option.map_some, Option.some.injEq, exists_eq_left', reduceCtorEq, false_or,
        List.isEmpty_cons, Bool.false_eq_true, ↓reduceIte, List.any_eq_true, beq_iff_eq]
      constructor
      · rintro ⟨x, hx, rfl⟩; exact hx
      · intro hx; exact ⟨ver, hx, rfl⟩

example : lastDef [("a", fourcc "btrt", []), ("b", fourcc "btrt", [1#8])] (fourcc "btrt") = some ("b", [1#8]) := by
  decide +kernel

/-! ## C50 box types -/

/-- **C50 (matching).** -/
theorem C50_matchWith (t u : BoxType) :
    BoxType.matchWith t t = true ∧ BoxType.matchWith t u = BoxType.matchWith u t ∧
    BoxType.matchWith box_type_any t = true ∧
    (BoxType.matchWith t u = true ↔ t = box_type_any ∨ u = box_type_any ∨ t = u) := by
  refine ⟨by simp [BoxType.matchWith], ?_, by simp [BoxType.matchWith], ?_⟩
  · simp only [BoxType.matchWith]
    by_cases h1 : t = box_type_any <;> by_cases h2 : u = box_type_any <;> simp [h1, h2, eq_comm]
  · simp only [BoxType.matchWith]
    by_cases h1 : t = box_type_any <;> by_cases h2 : u = box_type_any <;> simp [h1, h2]

/-- **C50 (construction).** Exactly the 4-byte strings are accepted, and stored unchanged. -/
theorem C50_ofString (s : List Byte) :
    (∀ t, BoxType.ofString s = .ok t ↔ s = BoxType.bytes t) ∧
    ((∃ e, BoxType.ofString s = .error (.exc e)) ↔ s.length ≠ 4) := by
  rcases s with _ | ⟨a, _ | ⟨b, _ | ⟨c, _ | ⟨d, _ | ⟨e, l⟩⟩⟩⟩⟩
  case cons.cons.cons.cons.nil =>
    constructor
    · rintro ⟨x, y, z, w⟩
      simp [BoxType.ofString, BoxType.bytes]
    · simp [BoxType.ofString]
  all_goals
    constructor
    · rintro ⟨x, y, z, w⟩
      simp [BoxType.ofString, BoxType.bytes]
    · simp [BoxType.ofString]

/-- Left inverse of `hex2`. -/
def unhex2 (l : List Byte) : Byte :=
  match l with
  | [a, b] =>
    let f := fun (x : Byte) => if x.toNat < 0x57 then x.toNat - 0x30 else x.toNat - 0x57
    BitVec.ofNat 8 (f a * 16 + f b)
  | _ => 0

theorem hex2_inj (a b : BitVec 8) (h : hex2 a = hex2 b) : a = b := by
  have k : ∀ a : BitVec 8, unhex2 (hex2 a) = a := by decide +kernel
  rw [← k a, h, k b]

theorem subst_head {a b : Byte} {l m : List Byte} (ha : printableTypeByte a = true) (hb : printableTypeByte b = true)
    (h : copyrightSubst a ++ l = copyrightSubst b ++ m) : a = b ∧ l = m := by
  have hc : ∀ x : BitVec 8, printableTypeByte x = true → x ≠ 0xc2#8 := by decide +kernel
  simp only [copyrightSubst] at h
  by_cases h1 : a = 0xa9#8 <;> by_cases h2 : b = 0xa9#8
  · simp [h1, h2] at h ⊢; exact h
  · simp only [h1, h2, ↓reduceIte, List.cons_append, List.nil_append, List.cons.injEq] at h
    exact absurd h.1.symm (hc b hb)
  · simp only [h1, h2, ↓reduceIte, List.cons_append, List.nil_append, List.cons.injEq] at h
    exact absurd h.1 (hc a ha)
  · simpa [h1, h2] using h

/-- **C50 (text).** The text form identifies the type: `toString` is injective on all 2^32 types. -/
theorem C50_toText_injective (t u : BoxType) (h : BoxType.toText t = BoxType.toText u) : t = u := by
  obtain ⟨a, b, c, d⟩ := t
  obtain ⟨e, f, g, i⟩ := u
  simp only [BoxType.toText] at h
  have hsl : ∀ x : Byte, (copyrightSubst x).length ≤ 2 := by
    intro x; simp only [copyrightSubst]; split <;> simp
  split at h <;> rename_i hp <;> split at h <;> rename_i hq
  · simp only [Bool.and_eq_true] at hp hq
    simp only [List.flatMap_cons, List.flatMap_nil, List.append_nil] at h
    obtain ⟨⟨⟨p0, p1⟩, p2⟩, p3⟩ := hp
    obtain ⟨⟨⟨q0, q1⟩, q2⟩, q3⟩ := hq
    obtain ⟨e0, h⟩ := subst_head p0 q0 h
    obtain ⟨e1, h⟩ := subst_head p1 q1 h
    obtain ⟨e2, h⟩ := subst_head p2 q2 h
    have h' : copyrightSubst d ++ [] = copyrightSubst i ++ [] := by simpa using h
    obtain ⟨e3, _⟩ := subst_head p3 q3 h'
    simp [e0, e1, e2, e3]
  · have := congrArg List.length h
    have l0 := hsl a; have l1 := hsl b; have l2 := hsl c; have l3 := hsl d
    simp [hex2] at this
    omega
  · have := congrArg List.length h
    have l0 := hsl e; have l1 := hsl f; have l2 := hsl g; have l3 := hsl i
    simp [hex2] at this
    omega
  · simp only [List.append_assoc] at h
    have h := (List.append_inj h rfl).2
    obtain ⟨e0, h⟩ := List.append_inj h rfl
    obtain ⟨e1, h⟩ := List.append_inj h rfl
    obtain ⟨e2, e3⟩ := List.append_inj h rfl
    simp [hex2_inj _ _ e0, hex2_inj _ _ e1, hex2_inj _ _ e2, hex2_inj _ _ e3]

example : BoxType.toText (fourcc "moov") = [0x6d, 0x6f, 0x6f, 0x76] ∧
    BoxType.toText ⟨0xa9, 0x74, 0x6f, 0x6f⟩ = [0xc2, 0xa9, 0x74, 0x6f, 0x6f] ∧
    (BoxType.toText ⟨0x01, 0xff, 0x6f, 0x6f⟩).length = 10 := by decide +kernel

/-! ## C51 time -/

/-- **C51 (bijection).** Conversion is a bijection on 64-bit times. -/
theorem C51_convert_bijective :
    (∀ t u, convert_to_epoch_19040101 t = convert_to_epoch_19040101 u → t = u) ∧
    (∀ v, ∃ t, convert_to_epoch_19040101 t = v) := by
  constructor
  · intro t u h
    simp only [convert_to_epoch_19040101] at h
    have := congrArg (· - SECONDS_19040101_to_19700101) h
    simpa [BitVec.add_sub_cancel] using this
  · intro v
    exact ⟨v - SECONDS_19040101_to_19700101, by simp [convert_to_epoch_19040101, BitVec.sub_add_cancel]⟩

/-- **C51 (format).** Formatting a converted time: for every Unix time below 2^32 (up to the year 2106) it shows the calendar of exactly that time,
for later ones (below 2^63) the all-zero text. -/
theorem C51_format_converted (t : BitVec 64) :
    (t.toNat < 2 ^ 32 → format_epoch_19040101 (convert_to_epoch_19040101 t) = .calendar t.toNat) ∧
    (2 ^ 32 ≤ t.toNat → t.toNat < 2 ^ 63 → format_epoch_19040101 (convert_to_epoch_19040101 t) = .tooBig) := by
  have e : convert_to_epoch_19040101 t - SECONDS_19040101_to_19700101 = t := by
    simp [convert_to_epoch_19040101, BitVec.add_sub_cancel]
  constructor
  · intro h
    have : t.toInt = t.toNat := BitVec.toInt_eq_toNat_of_lt (by omega)
    simp only [format_epoch_19040101, e, this]
    rw [if_neg (by omega)]
  · intro h1 h2
    have : t.toInt = t.toNat := BitVec.toInt_eq_toNat_of_lt (by omega)
    simp only [format_epoch_19040101, e, this]
    rw [if_pos (by omega)]

/-- C51: a time stored in a file between 1904 and 1970 is shown as a (negative) calendar time, not as zeros. -/
theorem C51_format_before_1970 (t : BitVec 64) (h : t.toNat < 2082844800) :
    format_epoch_19040101 t = .calendar ((t.toNat : Int) - 2082844800) := by
  have hs : SECONDS_19040101_to_19700101.toNat = 2082844800 := by decide
  have : (t - SECONDS_19040101_to_19700101).toInt = (t.toNat : Int) - 2082844800 := by
    rw [BitVec.toInt_eq_toNat_cond, BitVec.toNat_sub, hs]
    rw [show 2 ^ 64 - 2082844800 + t.toNat = 2 ^ 64 - 2082844800 + t.toNat from rfl]
    rw [Nat.mod_eq_of_lt (by omega)]
    split <;> omega
  simp only [format_epoch_19040101, this]
  rw [if_neg (by omega)]

example : format_epoch_19040101 (convert_to_epoch_19040101 1700000000#64) = .calendar 1700000000 := by decide

end Mp4
