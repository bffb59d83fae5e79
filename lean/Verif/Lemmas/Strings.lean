import Verif.Spec.LayoutStrings

/-! # Write/size/read facts of the text and metadata boxes -/

namespace Mp4
open R

@[ll] theorem strBits_length (s : List Byte) : (strBits s).length = 8 * (s.length + 1) := by
  simp only [strBits, ll]; omega

theorem strBits_eq (s : List Byte) : bytesBits (s ++ [0]) = strBits s := by
  simp [strBits, bytesBits]

theorem write_str (s : List Byte) : write_string s = ⟨strBits s, .ok (8 * (s.length + 1))⟩ := by
  rw [write_string_eq, strBits_eq]

theorem rd_str {β : Type} (s : List Byte) (hs : NoNul s) (m : Nat) (hm : 8 * (s.length + 1) ≤ m)
    (f : Nat × List Byte → R β) (d : List Byte) (rest : List Bool) :
    ((read_string m).bind f).run d (strBits s ++ rest) = (f (8 * (s.length + 1), s)).run d rest := by
  rw [← strBits_eq]; exact run_read_string s hs m hm f d rest

theorem rd_str_end {β : Type} (s : List Byte) (hs : NoNul s) (m : Nat) (hm : 8 * (s.length + 1) ≤ m)
    (f : Nat × List Byte → R β) (d : List Byte) :
    ((read_string m).bind f).run d (strBits s) = (f (8 * (s.length + 1), s)).run d [] := by
  have := rd_str s hs m hm f d []
  rwa [List.append_nil] at this

/-! ### hdlr -/

theorem Hdlr.write_eq (b : Hdlr) : b.writeData = ⟨Layout.hdlr b, .ok (8 * b.getDataSize)⟩ := by
  simp only [Hdlr.writeData, Layout.hdlr, Hdlr.getDataSize, write_str, wr]
  simp; omega
theorem Hdlr.size_eq (b : Hdlr) : (Layout.hdlr b).length = 8 * b.getDataSize := by
  simp only [Layout.hdlr, Hdlr.getDataSize, ll]; omega

theorem Hdlr.read_eq (b : Hdlr) (hp : b.padding = []) (h0 : b.pre_defined = 0) (hn : NoNul b.name)
    (d : List Byte) : Hdlr.readData.run d (Layout.hdlr b) = .ok ((8 * b.getDataSize, b), []) := by
  obtain ⟨fb, pd, ht, mf, hf, fm, name, padding⟩ := b
  subst hp h0
  simp only [Hdlr.readData, Layout.hdlr, rd, Nat.reduceLT, Nat.reduceLeDiff, List.flatMap_nil, List.append_nil, ll,
    ne_eq, not_true_eq_false, ↓reduceIte]
  rw [rd_str_end name hn _ (by omega)]
  rw [if_neg (by omega)]
  rw [Nat.mul_div_cancel_left _ (by decide : 0 < 8), Nat.mul_comm (name.length + 1) 8, Nat.sub_self]
  simp [read_vector_uint, readN, rd, Hdlr.getDataSize]
  omega

/-- Nonzero `pre_defined`: the name survives unless its first byte happens to equal its length (see C06). -/
theorem Hdlr.read_predefined (b : Hdlr) (hp : b.padding = []) (h0 : b.pre_defined ≠ 0) (hn : NoNul b.name)
    (hne : ∀ c, b.name[0]? = some c → c.toNat ≠ b.name.length) (pre d : List Byte)
    (hd : bytesBits d = bytesBits pre ++ Layout.hdlr b) :
    Hdlr.readData.run d (Layout.hdlr b) = .ok ((8 * b.getDataSize, b), []) := by
  obtain ⟨fb, pd, ht, mf, hf, fm, name, padding⟩ := b
  subst hp
  have hl := congrArg List.length hd
  simp only [Layout.hdlr, bytesBits_length, ll, List.flatMap_nil] at hl
  have htail : bytesBits (d.drop (pre.length + 24)) = strBits name := by
    rw [bytesBits_drop, hd]
    simp only [Layout.hdlr, List.flatMap_nil, List.append_nil]
    rw [← List.append_assoc]
    apply List.drop_left'
    simp only [ll]; omega
  simp only [Hdlr.readData, Layout.hdlr, rd, Nat.reduceLT, Nat.reduceLeDiff, List.flatMap_nil, List.append_nil, ll]
  simp only at h0 hn hne
  rw [if_pos h0]
  have hrun : (read_pascal_string (8 * (name.length + 1) / 8 * 8)).run d (strBits name)
      = .ok ((8 * (name.length + 1), name), []) := by
    have hs : ∀ m, 8 * (name.length + 1) ≤ m → (read_string m).run d (strBits name)
        = .ok ((8 * (name.length + 1), name), []) := by
      intro m hm
      have := rd_str_end name hn m hm .ret d
      rw [bind_ret] at this
      exact this
    rw [read_pascal_string]
    by_cases h16 : 8 * (name.length + 1) / 8 * 8 < 2 * 8
    · rw [if_pos h16]; exact hs _ (by omega)
    · rw [if_neg h16]
      simp only [bind_eq, run_tellg]
      cases name with
      | nil => simp at h16
      | cons c name =>
        have hc := hne c rfl
        have hsplit : strBits (c :: name) = bits c ++ strBits name := by simp [strBits]
        have hlen : (strBits (c :: name)).length / 8 = name.length + 2 := by simp only [ll]; omega
        rw [hsplit, run_readBits_byte]
        simp only [List.getD_cons_zero]
        rw [if_pos (by simp only [List.length_cons] at hc ⊢; omega), ← hsplit, hlen]
        rw [seekg]
        show (R.seek _ (read_string _)).run d _ = _
        simp only [R.run]
        simp only [ll, List.flatMap_nil, List.length_cons] at hl
        rw [if_pos (by omega)]
        have : d.length - (name.length + 2) = pre.length + 24 := by omega
        rw [this, htail]
        have h8 : (strBits name).length % 8 = 0 := by simp only [ll]; omega
        rw [h8, List.take_zero, List.nil_append]
        exact hs _ (by simp only [List.length_cons]; omega)
  rw [run_bind_ok hrun, if_neg (by omega)]
  rw [Nat.mul_div_cancel_left _ (by decide : 0 < 8), Nat.mul_comm (name.length + 1) 8, Nat.sub_self]
  simp [read_vector_uint, readN, rd, Hdlr.getDataSize]
  omega

/-- Any nonempty padding makes the box unreadable: the reader asks for eight times as many bytes as there are. -/
theorem Hdlr.read_padding_fails (b : Hdlr) (hp : b.padding ≠ []) (h0 : b.pre_defined = 0) (hn : NoNul b.name)
    (d : List Byte) : Hdlr.readData.run d (Layout.hdlr b) = .error .eof := by
  obtain ⟨fb, pd, ht, mf, hf, fm, name, padding⟩ := b
  simp only at h0 hp hn
  subst h0
  have hpos := List.length_pos_iff.mpr hp
  simp only [Hdlr.readData, Layout.hdlr, rd, Nat.reduceLT, Nat.reduceLeDiff, ll,
    ne_eq, not_true_eq_false, ↓reduceIte]
  rw [rd_str name hn _ (by omega)]
  rw [if_neg (by omega)]
  have hread : ∀ (k : Nat) (l : List Byte), l.length < k → ∀ (f : Nat × List Byte → R (Nat × Hdlr)),
      ((read_vector_uint 8 k).bind f).run d (l.flatMap bits) = .error .eof := by
    intro k
    induction k with
    | zero => intro l h; simp at h
    | succ k ih =>
      intro l h f
      rw [read_vector_uint, readN]
      simp only [bind_eq, pure_eq, bind_assoc', ret_bind]
      cases l with
      | nil => exact run_read_uint_eof 8 8 _ d _ (by decide)
      | cons c l =>
        simp only [List.flatMap_cons]
        rw [rd_uint 8 c _ d _ (by decide) (by decide)]
        have := ih l (by simpa using h) (fun p => f (8 + p.1, c :: p.2))
        rw [read_vector_uint] at this
        exact this
  exact hread _ padding (by omega) _

/-! ### url, urn -/

theorem Url.write_eq (b : Url) : b.writeData = ⟨Layout.url b, .ok (8 * b.getDataSize)⟩ := by
  cases h : b.toFullBox.selfContained <;>
  simp [Url.writeData, Layout.url, Url.getDataSize, write_str, h, onlyIf, - write_string_eq, W.opt, W.pure, W.bind_eq,
    W.bind_ok, writeVersionAndFlag_eq] <;> omega
theorem Url.size_eq (b : Url) : (Layout.url b).length = 8 * b.getDataSize := by
  simp only [Layout.url, Url.getDataSize, ll]
  cases b.toFullBox.selfContained <;> simp only [Bool.not_true, Bool.not_false, Bool.false_eq_true, ↓reduceIte] <;> omega

theorem Url.read_eq (b old : Url) (hn : NoNul b.location) (d : List Byte) (rest : List Bool) :
    (Url.readData old).run d (Layout.url b ++ rest) = .ok ((8 * b.getDataSize, b.stored old), rest) := by
  obtain ⟨fb, loc⟩ := b
  cases h : fb.selfContained
  · simp only [Url.readData, Layout.url, rd, h, onlyIf, Bool.not_false, Bool.false_eq_true, ↓reduceIte, ll]
    rw [rd_str loc hn _ (by omega)]
    simp [rd, Url.getDataSize, h, Url.stored]; omega
  · simp [Url.readData, Layout.url, rd, h, onlyIf, Url.getDataSize, Url.stored]

theorem Urn.write_eq (b : Urn) : b.writeData = ⟨Layout.urn b, .ok (8 * b.getDataSize)⟩ := by
  cases h : b.toFullBox.selfContained <;>
  simp [Urn.writeData, Layout.urn, Urn.getDataSize, write_str, h, onlyIf, - write_string_eq, W.opt, W.pure, W.bind_eq,
    W.bind_ok, writeVersionAndFlag_eq] <;> omega
theorem Urn.size_eq (b : Urn) : (Layout.urn b).length = 8 * b.getDataSize := by
  simp only [Layout.urn, Urn.getDataSize, ll]
  cases b.toFullBox.selfContained <;> simp only [Bool.not_true, Bool.not_false, Bool.false_eq_true, ↓reduceIte] <;> omega

theorem Urn.read_eq (b old : Urn) (hn : NoNul b.name) (hl : NoNul b.location) (d : List Byte) (rest : List Bool) :
    (Urn.readData old).run d (Layout.urn b ++ rest) = .ok ((8 * b.getDataSize, b.stored old), rest) := by
  obtain ⟨fb, name, loc⟩ := b
  simp only at hn hl
  cases h : fb.selfContained
  · simp only [Urn.readData, Layout.urn, rd, h, onlyIf, Bool.not_false, Bool.false_eq_true, ↓reduceIte, ll]
    rw [if_neg (by omega), rd_str name hn _ (by omega), rd_str loc hl _ (by omega)]
    simp [rd, Urn.getDataSize, h, Urn.stored]; omega
  · simp [Urn.readData, Layout.urn, rd, h, onlyIf, Urn.getDataSize, Urn.stored]

/-! ### emsg -/

theorem Emsg.write_eq (b : Emsg) : b.writeData = ⟨Layout.emsg b, .ok (8 * b.getDataSize)⟩ := by
  by_cases h : b.version = 0
  · simp only [Emsg.writeData, Layout.emsg, Emsg.getDataSize, write_str, wr, h, ↓reduceIte, Nat.reduceLeDiff]
    simp; omega
  · simp only [Emsg.writeData, Layout.emsg, Emsg.getDataSize, write_str, wr, h, ↓reduceIte]
    simp; omega
theorem Emsg.size_eq (b : Emsg) : (Layout.emsg b).length = 8 * b.getDataSize := by
  by_cases h : b.version = 0
  · simp only [Layout.emsg, Emsg.getDataSize, h, ↓reduceIte, ll]; omega
  · simp only [Layout.emsg, Emsg.getDataSize, h, ↓reduceIte, ll]; omega

theorem Emsg.tail_eq (n : Nat) (b c : Emsg) (d : List Byte) (h : { c with message_data := b.message_data } = b) :
    (Emsg.readTail n c).run d (b.message_data.flatMap bits) = .ok ((n + 8 * b.message_data.length, b), []) := by
  simp only [Emsg.readTail, rd, ll]
  rw [rd_vector_end _ _ _ d (by omega) (by decide) (by decide)]
  simp only [rd, h]

theorem Emsg.read_eq (b : Emsg) (hu : NoNul b.scheme_uri) (hv : NoNul b.value)
    (ht : b.version = 0 → b.presentation_time.toNat < 2 ^ 32) (d : List Byte) :
    Emsg.readData.run d (Layout.emsg b) = .ok ((8 * b.getDataSize, b), []) := by
  by_cases h : b.version = 0
  · simp only [Emsg.readData, Layout.emsg, rd, h, ↓reduceIte, ll]
    rw [rd_str _ hu _ (by omega)]
    rw [rd_str _ hv _ (by omega)]
    simp only [rd, Nat.reduceLT, Nat.reduceLeDiff, ht h]
    rw [Emsg.tail_eq _ b _ d (by cases b; rfl)]
    simp [Emsg.getDataSize, h]; omega
  · simp only [Emsg.readData, Layout.emsg, rd, h, ↓reduceIte, ll, Nat.reduceLT, Nat.reduceLeDiff]
    rw [rd_str _ hu _ (by omega)]
    rw [rd_str _ hv _ (by omega)]
    rw [Emsg.tail_eq _ b _ d (by cases b; rfl)]
    simp only [Emsg.getDataSize, h, ↓reduceIte, Except.ok.injEq, Prod.mk.injEq, and_true]; omega

/-! ### data -/

theorem Data.write_eq (b : Data) : b.writeData = ⟨Layout.data b, .ok (8 * b.getDataSize)⟩ := by
  simp only [Data.writeData, Layout.data, Data.getDataSize, wr]
  simp; omega
theorem Data.size_eq (b : Data) : (Layout.data b).length = 8 * b.getDataSize := by
  simp only [Layout.data, Data.getDataSize, ll]; omega
theorem Data.read_eq (b : Data) (d : List Byte) :
    Data.readData.run d (Layout.data b) = .ok ((8 * b.getDataSize, b), []) := by
  simp only [Data.readData, Layout.data, rd, Nat.reduceLT, Nat.reduceLeDiff, ll]
  rw [rd_vector_end _ _ _ d (by omega) (by decide) (by decide)]
  simp [rd, Data.getDataSize]; omega

/-! ### colr -/

theorem Colr.write_eq (b : Colr) : b.writeData = ⟨Layout.colr b, .ok (8 * b.getDataSize)⟩ := by
  cases h : Colr.isNclx b.colour_type <;> cases h2 : Colr.isProfile b.colour_type <;>
  simp [Colr.writeData, Layout.colr, Colr.getDataSize, wr, h, h2] <;> omega
theorem Colr.size_eq (b : Colr) : (Layout.colr b).length = 8 * b.getDataSize := by
  cases h : Colr.isNclx b.colour_type <;> cases h2 : Colr.isProfile b.colour_type <;>
  simp only [Layout.colr, Colr.getDataSize, ll, h, h2, Bool.false_eq_true, ↓reduceIte] <;> omega

theorem Colr.read_eq (b old : Colr) (hr : b.reserved.toNat < 2 ^ 7) (d : List Byte) :
    (Colr.readData old).run d (Layout.colr b) = .ok ((8 * b.getDataSize, b.stored old), []) := by
  cases h : Colr.isNclx b.colour_type
  · cases h2 : Colr.isProfile b.colour_type
    all_goals
      simp only [Colr.readData, Layout.colr, rd, h, h2, Bool.false_eq_true, ↓reduceIte, ll]
      rw [rd_vector_end _ _ _ d (by omega) (by decide) (by decide)]
      simp [rd, Colr.getDataSize, Colr.stored, h, h2]; omega
  · simp only [Colr.readData, Layout.colr, rd, h, ↓reduceIte, Nat.reduceLT, Nat.reduceLeDiff, hr]
    simp [Colr.getDataSize, Colr.stored, h]

/-! ### pssh -/

theorem Pssh.write_eq (b : Pssh) : b.writeData = ⟨Layout.pssh b, .ok (8 * b.getDataSize)⟩ := by
  have hk : writeList write_arr b.kids = ⟨b.kids.flatMap vbits, .ok (8 * 16 * b.kids.length)⟩ :=
    wr_list _ vbits _ _ (fun x _ => write_arr_eq x)
  by_cases h : b.version = 0
  · simp only [Pssh.writeData, Layout.pssh, Pssh.getDataSize, wr, hk, h]
    simp; omega
  · simp only [Pssh.writeData, Layout.pssh, Pssh.getDataSize, wr, hk, h]
    have h' : ¬ b.version = 0#8 := h
    simp [h']; omega
theorem Pssh.size_eq (b : Pssh) : (Layout.pssh b).length = 8 * b.getDataSize := by
  have hk : (b.kids.flatMap vbits).length = 8 * 16 * b.kids.length :=
    ll_list vbits _ _ (fun x _ => vbits_length x)
  by_cases h : b.version = 0
  · simp only [Layout.pssh, Pssh.getDataSize, ll, hk, h, ne_eq, not_true_eq_false, decide_false, Bool.false_eq_true,
      ↓reduceIte]; omega
  · simp only [Layout.pssh, Pssh.getDataSize, ll, hk, h, ne_eq, not_false_eq_true, decide_true, ↓reduceIte]; omega

theorem Pssh.read_eq (b old : Pssh) (hk : b.kids.length < 2 ^ 32) (hd : b.data.length < 2 ^ 32)
    (d : List Byte) (rest : List Bool) :
    (Pssh.readData old).run d (Layout.pssh b ++ rest) = .ok ((8 * b.getDataSize, b.stored old), rest) := by
  have harr : ∀ x ∈ b.kids, ∀ r, (read_arr 8 16).run d (vbits x ++ r) = .ok ((8 * 16, x), r) := by
    intro x _ r
    have := rd_arr x .ret d r (by decide) (by decide)
    rw [bind_ret] at this
    exact this
  by_cases h : b.version = 0
  · simp only [Pssh.readData, Layout.pssh, rd, h, ne_eq, not_true_eq_false, decide_false, R.opt, onlyIf,
      Bool.false_eq_true, ↓reduceIte, List.nil_append, Nat.reduceLT, Nat.reduceLeDiff]
    rw [rd_vector _ _ _ d rest (by simp; omega) (by decide) (by decide)]
    simp [rd, Pssh.getDataSize, h, Pssh.stored]; omega
  · simp only [Pssh.readData, Layout.pssh, rd, h, ne_eq, not_false_eq_true, decide_true, R.opt, onlyIf, ↓reduceIte,
      Nat.reduceLT, Nat.reduceLeDiff]
    rw [rd_list (read_arr 8 16) vbits (8 * 16) b.kids _ _ d _ (by simp; omega) harr]
    simp only [rd, Nat.reduceLT, Nat.reduceLeDiff]
    rw [rd_vector _ _ _ d rest (by simp; omega) (by decide) (by decide)]
    have h' : ¬ b.version = 0#8 := h
    simp [rd, Pssh.getDataSize, h', Pssh.stored]; omega

/-! ### ftyp / styp -/

theorem Ftyp.write_eq (b : Ftyp) : b.writeData = ⟨Layout.ftyp b, .ok (8 * b.getDataSize)⟩ := by
  have hk : writeList write_array_uint8_4 b.compatible_brands
      = ⟨b.compatible_brands.flatMap code4, .ok (32 * b.compatible_brands.length)⟩ :=
    wr_list _ code4 _ _ (fun x _ => write_code4 x)
  simp only [Ftyp.writeData, Layout.ftyp, Ftyp.getDataSize, wr, hk]
  simp; omega
theorem Ftyp.size_eq (b : Ftyp) : (Layout.ftyp b).length = 8 * b.getDataSize := by
  have hk : (b.compatible_brands.flatMap code4).length = 32 * b.compatible_brands.length :=
    ll_list code4 _ _ (fun x _ => code4_length x)
  simp only [Layout.ftyp, Ftyp.getDataSize, ll, hk]; omega
theorem Ftyp.read_eq (b : Ftyp) (d : List Byte) :
    Ftyp.readData.run d (Layout.ftyp b) = .ok ((8 * b.getDataSize, b), []) := by
  have hk : (b.compatible_brands.flatMap code4).length = 32 * b.compatible_brands.length :=
    ll_list code4 _ _ (fun x _ => code4_length x)
  have hr : ∀ x ∈ b.compatible_brands, ∀ r, read_array_uint8_4.run d (code4 x ++ r) = .ok ((32, x), r) := by
    intro x _ r
    have := rd_code4 x .ret d r
    rw [bind_ret] at this
    exact this
  simp only [Ftyp.readData, Layout.ftyp, rd, Nat.reduceLT, Nat.reduceLeDiff, hk]
  rw [if_neg (by omega), rd_list_end read_array_uint8_4 code4 32 b.compatible_brands _ _ d (by omega) hr]
  simp [rd, Ftyp.getDataSize]; omega

/-! ### meta -/

theorem Meta.write_eq (b : Meta) : b.writeData = ⟨Layout.meta b, .ok (8 * b.getDataSize)⟩ := by
  simp [Meta.writeData, Layout.meta, Meta.getDataSize, wr]
theorem Meta.size_eq (b : Meta) : (Layout.meta b).length = 8 * b.getDataSize := by
  simp [Layout.meta, Meta.getDataSize, ll]
/-- The version and flags of a `meta` box are always zero after reading. -/
theorem Meta.read_any (b : Meta) (d : List Byte) (rest : List Bool) :
    Meta.readData.run d (Layout.meta b ++ rest) = .ok ((8 * b.getDataSize, ⟨⟨0, 0, 0, 0⟩⟩), rest) := by
  obtain ⟨⟨v, f0, f1, f2⟩⟩ := b
  simp only [Meta.readData, Layout.meta, rd]
  split
  · simp [rd, Meta.getDataSize]
  · next h =>
    have h : v ||| f0 ||| f1 ||| f2 = 0 := Decidable.not_not.mp h
    have key : v = 0 ∧ f0 = 0 ∧ f1 = 0 ∧ f2 = 0 := by
      simpa [and_assoc] using h
    obtain ⟨rfl, rfl, rfl, rfl⟩ := key
    simp [rd, Meta.getDataSize]

/-! ### opaque payloads -/

theorem Opaque.write_eq (b : Opaque) : b.writeData = ⟨Layout.opaque b, .ok (8 * b.getDataSize)⟩ := by
  simp [Opaque.writeData, Layout.opaque, Opaque.getDataSize, wr]
theorem Opaque.size_eq (b : Opaque) : (Layout.opaque b).length = 8 * b.getDataSize := by
  simp only [Layout.opaque, Opaque.getDataSize, ll]
theorem Opaque.read_eq (b : Opaque) (d : List Byte) :
    Opaque.readData.run d (Layout.opaque b) = .ok ((8 * b.getDataSize, b), []) := by
  simp only [Opaque.readData, Layout.opaque, rd, ll]
  rw [rd_vector_end _ _ _ d (by omega) (by decide) (by decide)]
  simp [rd, Opaque.getDataSize]

end Mp4
