import Verif.Lemmas.ReadsBox

/-! # The bits a read consumes, for fields that have more than one encoding -/

namespace Mp4
open R
variable {α β : Type}

/-- Whenever `p` ends normally with a value `a` that satisfies `F`, it consumed at most as many bits as `enc a` has, and if
it consumed as many, then exactly these. -/
def ReadsLe (F : α → Prop) (p : R (Nat × α)) (enc : α → List Bool) : Prop :=
  ∀ d s n a s', p.run d s = .ok ((n, a), s') → F a →
    s.length ≤ (enc a).length + s'.length ∧ (s.length = (enc a).length + s'.length → s = enc a ++ s')

/-- The same with the bits `pre` before. -/
def ReadsLeFrom (F : α → Prop) (pre : List Bool) (p : R (Nat × α)) (enc : α → List Bool) : Prop :=
  ∀ d s n a s', p.run d s = .ok ((n, a), s') → F a →
    pre.length + s.length ≤ (enc a).length + s'.length ∧
    (pre.length + s.length = (enc a).length + s'.length → pre ++ s = enc a ++ s')

theorem ReadsLeFrom.start {F : α → Prop} {p : R (Nat × α)} {enc : α → List Bool} (h : ReadsLeFrom F [] p enc) :
    ReadsLe F p enc := by
  intro d s n a s' hr hF
  simpa using h d s n a s' hr hF

theorem Reads.le {p : R (Nat × α)} {enc : α → List Bool} {P : α → Prop} (h : Reads p enc P) :
    ReadsLe (fun _ => True) p enc := by
  intro d s n a s' hr _
  obtain ⟨e, -⟩ := h d s n a s' hr
  exact ⟨by rw [e]; simp, fun _ => e⟩

theorem ReadsLeFrom.ret {F : α → Prop} {pre : List Bool} {n : Nat} {a : α} {enc : α → List Bool}
    (h : F a → pre = enc a) : ReadsLeFrom F pre (.ret (n, a)) enc := by
  intro d s m a' s' hr hF
  cases hr
  rw [h hF]
  exact ⟨Nat.le_refl _, fun _ => rfl⟩

theorem ReadsLeFrom.throw {F : α → Prop} {pre : List Bool} {e : Err} {enc : α → List Bool} :
    ReadsLeFrom F pre (.throw e) enc := by
  intro d s m a' s' hr
  cases hr

/-- Nothing to show where the value cannot satisfy `F`. -/
theorem ReadsLeFrom.never {F : α → Prop} {pre : List Bool} {p : R (Nat × α)} {enc : α → List Bool}
    (h : Ensures p fun x => ¬ F x.2) : ReadsLeFrom F pre p enc :=
  fun d s m a s' hr hF => (h d s (m, a) s' hr hF).elim

theorem ReadsLeFrom.bind {F : β → Prop} {pre : List Bool} {p : R (Nat × α)} {g : Nat × α → R (Nat × β)}
    {e : α → List Bool} {enc : β → List Bool} (hp : ReadsLe (fun _ => True) p e)
    (hg : ∀ n a, ReadsLeFrom F (pre ++ e a) (g (n, a)) enc) : ReadsLeFrom F pre (p.bind g) enc := by
  intro d s m b s' hr hF
  rw [run_bind] at hr
  cases h : p.run d s with
  | error e => rw [h] at hr; cases hr
  | ok x =>
    obtain ⟨⟨k, a⟩, s1⟩ := x
    rw [h] at hr
    obtain ⟨l1, e1⟩ := hp d s k a s1 h trivial
    obtain ⟨l2, e2⟩ := hg k a d s1 m b s' hr hF
    rw [List.length_append] at l2 e2
    refine ⟨by omega, fun hl => ?_⟩
    rw [e1 (by omega), ← List.append_assoc, e2 (by omega)]

/-- The same keeping what is known about the value read. -/
theorem ReadsLeFrom.bindP {F : β → Prop} {pre : List Bool} {p : R (Nat × α)} {g : Nat × α → R (Nat × β)}
    {e : α → List Bool} {Q : α → Prop} {enc : β → List Bool} (hp : Reads p e Q)
    (hg : ∀ n a, Q a → ReadsLeFrom F (pre ++ e a) (g (n, a)) enc) : ReadsLeFrom F pre (p.bind g) enc := by
  intro d s m b s' hr hF
  rw [run_bind] at hr
  cases h : p.run d s with
  | error e => rw [h] at hr; cases hr
  | ok x =>
    obtain ⟨⟨k, a⟩, s1⟩ := x
    rw [h] at hr
    obtain ⟨e1, q1⟩ := hp d s k a s1 h
    obtain ⟨l2, e2⟩ := hg k a q1 d s1 m b s' hr hF
    rw [List.length_append] at l2 e2
    have l1 : s.length = (e a).length + s1.length := by rw [e1, List.length_append]
    refine ⟨by omega, fun hl => ?_⟩
    rw [e1, ← List.append_assoc, e2 (by omega)]

theorem ReadsLeFrom.bindEnd {F : β → Prop} {pre : List Bool} {g : Nat → R (Nat × β)} {enc : β → List Bool}
    (hg : ∀ k, ReadsLeFrom F pre (g k) enc) : ReadsLeFrom F pre (offsetToEnd.bind g) enc :=
  fun d s m a s' hr => hg _ d s m a s' hr

theorem ReadsLeFrom.ite {F : α → Prop} {pre : List Bool} {c : Prop} [Decidable c] {p q : R (Nat × α)} {enc : α → List Bool}
    (hp : c → ReadsLeFrom F pre p enc) (hq : ¬ c → ReadsLeFrom F pre q enc) :
    ReadsLeFrom F pre (if c then p else q) enc := by
  split
  · next h => exact hp h
  · next h => exact hq h

/-! ### strings and length fields -/

theorem readBits8_inv {d : List Byte} {s s' : List Bool} {v : List Byte} (h : (readBits 8).run d s = .ok (v, s')) :
    ∃ b : Byte, v = [b] ∧ s = bits b ++ s' := by
  obtain ⟨l, e, hl, -⟩ := run_readBits_ok 8 d s v s' h
  have hb : bits (BitVec.ofNat 8 (ofBits l)) = l := by
    have hlt := ofBits_lt l
    rw [hl] at hlt
    rw [bits, BitVec.toNat_ofNat, Nat.mod_eq_of_lt hlt, ← hl, natBits_ofBits]
  refine ⟨BitVec.ofNat 8 (ofBits l), ?_, by rw [hb, e]⟩
  rw [e, ← hb] at h
  have := run_of_bind_ret (run_readBits_byte .ret d (BitVec.ofNat 8 (ofBits l)) s')
  rw [this] at h
  cases h
  rfl

/-- A string is either read with its terminator or cut off by the budget. -/
theorem readStringGo_inv {k n : Nat} {a d : List Byte} {s s' : List Bool}
    (h : (readStringGo k).run d s = .ok ((n, a), s')) :
    NoNul a ∧ (s = strBits a ++ s' ∨ (s = a.flatMap bits ++ s' ∧ a.length = k)) := by
  induction k generalizing n a s with
  | zero => cases h; exact ⟨fun c hc => by simp at hc, Or.inr ⟨rfl, rfl⟩⟩
  | succ k ih =>
    rw [readStringGo, bind_eq, run_bind] at h
    cases h1 : (readBits 8).run d s with
    | error e => rw [h1] at h; cases h
    | ok x =>
      obtain ⟨v, s1⟩ := x
      rw [h1] at h
      obtain ⟨b, rfl, e1⟩ := readBits8_inv h1
      simp only [List.getD_cons_zero] at h
      split at h
      · next hb =>
        cases h
        refine ⟨fun c hc => by simp at hc, Or.inl ?_⟩
        rw [e1, hb]
        rfl
      · next hb =>
        rw [bind_eq, run_bind] at h
        cases h2 : (readStringGo k).run d s1 with
        | error e => rw [h2] at h; cases h
        | ok y =>
          obtain ⟨⟨m, t⟩, s2⟩ := y
          rw [h2] at h
          cases h
          obtain ⟨hn, ht⟩ := ih h2
          refine ⟨fun c hc => ?_, ?_⟩
          · rcases List.mem_cons.1 hc with rfl | hc
            · exact hb
            · exact hn c hc
          · rcases ht with ht | ⟨ht, hl⟩
            · exact Or.inl (by rw [e1, ht]; simp [strBits])
            · exact Or.inr ⟨by rw [e1, ht]; simp, by simp [hl]⟩

theorem readsLe_string (m : Nat) : ReadsLe (fun _ => True) (read_string m) strBits := by
  intro d s n a s' h _
  obtain ⟨-, h | ⟨h, -⟩⟩ := readStringGo_inv h
  · exact ⟨by rw [h]; simp, fun _ => h⟩
  · rw [h]
    simp only [List.length_append, strBits]
    refine ⟨by omega, fun hl => ?_⟩
    have : (bits (0#8 : Byte)).length = 8 := by simp
    omega

/-- A length field read from four bytes is what is written for its value. -/
theorem readUvarintGo_inv {fuel n : Nat} {val a : BitVec 32} {rb : Nat} {d : List Byte} {s s' : List Bool}
    (h : (readUvarintGo 32 fuel val rb).run d s = .ok ((n, a), s')) :
    ∃ (l : List Byte) (x : Byte), s = l.flatMap bits ++ bits x ++ s' ∧ (∀ b ∈ l, 128 ≤ b.toNat) ∧ x.toNat < 128 ∧
      a = (l ++ [x]).foldl (fun (v : BitVec 32) b => (v <<< 7) + (b &&& 0x7f#8).setWidth 32) val := by
  induction fuel generalizing val rb s with
  | zero => cases h
  | succ fuel ih =>
    rw [readUvarintGo, bind_eq, run_bind] at h
    cases h1 : (readBits 8).run d s with
    | error e => rw [h1] at h; cases h
    | ok y =>
      obtain ⟨v, s1⟩ := y
      rw [h1] at h
      obtain ⟨b, rfl, e1⟩ := readBits8_inv h1
      have hhigh : ∀ b : Byte, (b &&& 0x80#8 = 0 → b.toNat < 128) ∧ (¬ b &&& 0x80#8 = 0 → 128 ≤ b.toNat) := by decide +kernel
      simp only [List.getD_cons_zero] at h
      split at h
      · next hb =>
        cases h
        exact ⟨[], b, by simp [e1], by simp, (hhigh b).1 hb, rfl⟩
      · next hb =>
        obtain ⟨l, x, e, hl, hx, ha⟩ := ih h
        refine ⟨b :: l, x, by rw [e1, e]; simp, ?_, hx, by rw [ha]; rfl⟩
        intro c hc
        rcases List.mem_cons.1 hc with rfl | hc
        · exact (hhigh c).2 hb
        · exact hl c hc

theorem uvarint4 (b0 b1 b2 x : Byte) (h0 : 128 ≤ b0.toNat) (h1 : 128 ≤ b1.toNat) (h2 : 128 ≤ b2.toNat) (hx : x.toNat < 128) :
    lenBits ([b0, b1, b2, x].foldl (fun (v : BitVec 32) b => (v <<< 7) + (b &&& 0x7f#8).setWidth 32) 0)
      = bits b0 ++ bits b1 ++ bits b2 ++ bits x := by
  have hmask : ∀ b : Byte, ((b &&& 0x7f#8).setWidth 32 : BitVec 32).toNat = b.toNat % 128 := by
    intro b
    rw [BitVec.toNat_setWidth, BitVec.toNat_and, show (0x7f#8).toNat = 2 ^ 7 - 1 from rfl, Nat.and_two_pow_sub_one_eq_mod]
    omega
  have hv : ([b0, b1, b2, x].foldl (fun (v : BitVec 32) b => (v <<< 7) + (b &&& 0x7f#8).setWidth 32) 0).toNat
      = (((b0.toNat % 128) * 128 + b1.toNat % 128) * 128 + b2.toNat % 128) * 128 + x.toNat % 128 := by
    simp only [List.foldl_cons, List.foldl_nil, BitVec.toNat_add, BitVec.toNat_shiftLeft, Nat.shiftLeft_eq, hmask,
      BitVec.toNat_ofNat, show (0 : BitVec 32).toNat = 0 from rfl]
    omega
  have hi : ∀ b : Byte, 128 ≤ b.toNat → bits b = [true] ++ natBits 7 b.toNat := by decide +kernel
  have lo : ∀ b : Byte, b.toNat < 128 → bits b = [false] ++ natBits 7 b.toNat := by decide +kernel
  have k : ∀ a c : Nat, a % 128 = c % 128 → natBits 7 a = natBits 7 c := by
    intro a c hac
    rw [← natBits_mod 7 a, ← natBits_mod 7 c, show 2 ^ 7 = 128 from rfl, hac]
  rw [lenBits, hv, hi _ h0, hi _ h1, hi _ h2, lo _ hx]
  rw [k (_ / 2 ^ 21) b0.toNat (by omega), k (_ / 2 ^ 14) b1.toNat (by omega), k (_ / 2 ^ 7) b2.toNat (by omega),
    k (_ + _) x.toNat (by omega)]
  simp

theorem read_uvarint_four {n : Nat} {a : BitVec 32} {d : List Byte} {s s' : List Bool}
    (h : (read_uvarint 32).run d s = .ok ((n, a), s')) (hl : s.length = 32 + s'.length) : s = lenBits a ++ s' := by
  obtain ⟨l, x, e, hb, hx, ha⟩ := readUvarintGo_inv (show (readUvarintGo 32 _ 0 0).run d s = _ from h)
  have hlen : ∀ l : List Byte, (l.flatMap bits).length = 8 * l.length := by
    intro l
    induction l with
    | nil => rfl
    | cons a l ih => simp [ih]; omega
  have h3 : l.length = 3 := by
    have := congrArg List.length e
    simp only [List.length_append, hlen] at this
    have : (bits x).length = 8 := by simp
    omega
  match l, h3 with
  | [b0, b1, b2], _ =>
    rw [ha, e, show [b0, b1, b2] ++ [x] = [b0, b1, b2, x] from rfl,
      uvarint4 b0 b1 b2 x (hb _ (by simp)) (hb _ (by simp)) (hb _ (by simp)) hx]
    simp

/-! ### the classes -/

theorem Stsz.reads : ReadsLe (fun b => b.sample_size = 0) Stsz.readData Layout.stsz := by
  refine ReadsLeFrom.start ?_
  rw [Stsz.readData]
  simp only [bind_eq, pure_eq]
  refine ReadsLeFrom.bind reads_fullBox.le fun _ fb => ?_
  refine ReadsLeFrom.bind (reads_uint 32 (by decide)).le fun _ sz => ?_
  refine ReadsLeFrom.bind (reads_uint 32 (by decide)).le fun _ cnt => ?_
  dsimp only
  refine ReadsLeFrom.ite (fun h0 => ?_) fun h0 => ?_
  · refine ReadsLeFrom.bindP (reads_vector 32 _ (by decide)) fun _ l hl => ?_
    exact ReadsLeFrom.ret fun _ => by simp [Layout.stsz, hl, h0, cbits_toNat]
  · exact ReadsLeFrom.ret fun h => (h0 h).elim

theorem Url.reads (old : Url) : ReadsLe (fun _ => True) (Url.readData old) Layout.url := by
  refine ReadsLeFrom.start ?_
  rw [Url.readData]
  simp only [bind_eq, pure_eq]
  refine ReadsLeFrom.bind reads_fullBox.le fun _ fb => ?_
  dsimp only
  refine ReadsLeFrom.ite (fun h0 => ?_) fun h0 => ?_
  · refine ReadsLeFrom.bindEnd fun _ => ?_
    refine ReadsLeFrom.bind (readsLe_string _) fun _ l => ?_
    exact ReadsLeFrom.ret fun _ => by simp [Layout.url, h0, onlyIf]
  · exact ReadsLeFrom.ret fun h => by simp [Layout.url, h0, onlyIf]

theorem Urn.reads (old : Urn) : ReadsLe (fun _ => True) (Urn.readData old) Layout.urn := by
  refine ReadsLeFrom.start ?_
  rw [Urn.readData]
  simp only [bind_eq, pure_eq]
  refine ReadsLeFrom.bind reads_fullBox.le fun _ fb => ?_
  dsimp only
  refine ReadsLeFrom.ite (fun h0 => ?_) fun h0 => ?_
  · exact ReadsLeFrom.ret fun h => by simp [Layout.urn, h0, onlyIf]
  · refine ReadsLeFrom.bindEnd fun _ => ?_
    refine ReadsLeFrom.bind (readsLe_string _) fun _ l => ?_
    refine ReadsLeFrom.bind (readsLe_string _) fun _ l => ?_
    exact ReadsLeFrom.ret fun _ => by simp [Layout.urn, h0, onlyIf]

theorem Emsg.reads : ReadsLe (fun _ => True) Emsg.readData Layout.emsg := by
  refine ReadsLeFrom.start ?_
  rw [Emsg.readData]
  simp only [bind_eq, pure_eq]
  refine ReadsLeFrom.bind reads_fullBox.le fun _ fb => ?_
  dsimp only
  refine ReadsLeFrom.ite (fun h0 => ?_) fun h0 => ?_
  · refine ReadsLeFrom.bindEnd fun _ => ?_
    refine ReadsLeFrom.bind (readsLe_string _) fun _ _ => ?_
    refine ReadsLeFrom.bind (readsLe_string _) fun _ _ => ?_
    refine ReadsLeFrom.bind (reads_uint 32 (by decide)).le fun _ _ => ?_
    refine ReadsLeFrom.bind (reads_ubits 64 32 (by decide) (by decide)).le fun _ _ => ?_
    refine ReadsLeFrom.bind (reads_uint 32 (by decide)).le fun _ _ => ?_
    refine ReadsLeFrom.bind (reads_uint 32 (by decide)).le fun _ _ => ?_
    rw [Emsg.readTail]
    simp only [bind_eq, pure_eq]
    refine ReadsLeFrom.bindEnd fun _ => ?_
    refine ReadsLeFrom.bind (reads_vector 8 _ (by decide)).le fun _ _ => ?_
    exact ReadsLeFrom.ret fun _ => by simp [Layout.emsg, h0]
  · refine ReadsLeFrom.bind (reads_uint 32 (by decide)).le fun _ _ => ?_
    refine ReadsLeFrom.bind (reads_uint 64 (by decide)).le fun _ _ => ?_
    refine ReadsLeFrom.bind (reads_uint 32 (by decide)).le fun _ _ => ?_
    refine ReadsLeFrom.bind (reads_uint 32 (by decide)).le fun _ _ => ?_
    refine ReadsLeFrom.bindEnd fun _ => ?_
    refine ReadsLeFrom.bind (readsLe_string _) fun _ _ => ?_
    refine ReadsLeFrom.bind (readsLe_string _) fun _ _ => ?_
    rw [Emsg.readTail]
    simp only [bind_eq, pure_eq]
    refine ReadsLeFrom.bindEnd fun _ => ?_
    refine ReadsLeFrom.bind (reads_vector 8 _ (by decide)).le fun _ _ => ?_
    exact ReadsLeFrom.ret fun _ => by simp [Layout.emsg, show ¬ fb.version = 0#8 from h0]

theorem Hdlr.reads : ReadsLe (fun b => b.pre_defined = 0) Hdlr.readData Layout.hdlr := by
  refine ReadsLeFrom.start ?_
  rw [Hdlr.readData]
  simp only [bind_eq, pure_eq]
  refine ReadsLeFrom.bind reads_fullBox.le fun _ fb => ?_
  refine ReadsLeFrom.bind (reads_uint 32 (by decide)).le fun _ pd => ?_
  refine ReadsLeFrom.bind reads_code4.le fun _ _ => ?_
  refine ReadsLeFrom.bind reads_code4.le fun _ _ => ?_
  refine ReadsLeFrom.bind reads_code4.le fun _ _ => ?_
  refine ReadsLeFrom.bind reads_code4.le fun _ _ => ?_
  refine ReadsLeFrom.bindEnd fun _ => ?_
  dsimp only
  by_cases h0 : pd = 0
  · rw [if_neg (by simpa using h0)]
    refine ReadsLeFrom.bind (readsLe_string _) fun _ _ => ?_
    dsimp only
    refine ReadsLeFrom.ite (fun _ => ReadsLeFrom.throw) fun _ => ?_
    refine ReadsLeFrom.bind (reads_vector 8 _ (by decide)).le fun _ _ => ?_
    exact ReadsLeFrom.ret fun _ => by simp [Layout.hdlr]
  · rw [if_pos h0]
    refine ReadsLeFrom.never (Ensures.bind (Ensures.any _) fun _ _ => ?_)
    split
    · exact Ensures.throw
    · exact Ensures.bind (Ensures.any _) fun _ _ => Ensures.ret h0

theorem Iods.reads_four {n : Nat} {b : Iods} {d : List Byte} {s s' : List Bool}
    (h : Iods.readData.run d s = .ok ((n, b), s')) (hl : s.length = (Layout.iods b).length + s'.length) :
    s = Layout.iods b ++ s' := by
  rw [Iods.readData] at h
  simp only [bind_eq, pure_eq] at h
  rw [run_bind] at h
  cases h1 : FullBox.readVersionAndFlag.run d s with
  | error e => rw [h1] at h; cases h
  | ok x1 =>
  obtain ⟨⟨n1, fb⟩, s1⟩ := x1
  rw [h1] at h
  obtain ⟨e1, -⟩ := reads_fullBox d s n1 fb s1 h1
  dsimp only at h
  rw [run_bind] at h
  cases h2 : (read_uint 8).run d s1 with
  | error e => rw [h2] at h; cases h
  | ok x2 =>
  obtain ⟨⟨n2, tag⟩, s2⟩ := x2
  rw [h2] at h
  obtain ⟨e2, -⟩ := reads_uint 8 (by decide) d s1 n2 tag s2 h2
  dsimp only at h
  rw [run_bind] at h
  cases h3 : (read_uvarint 32).run d s2 with
  | error e => rw [h3] at h; cases h
  | ok x3 =>
  obtain ⟨⟨n3, len⟩, s3⟩ := x3
  rw [h3] at h
  dsimp only at h
  have hrest : Reads ((read_uint 16).bind fun x => (read_uint 8).bind fun x4 => (read_uint 8).bind fun x5 =>
      (read_uint 8).bind fun x6 => (read_uint 8).bind fun x7 => (read_uint 8).bind fun x8 =>
      .ret (n1 + n2 + n3 + x.1 + x4.1 + x5.1 + x6.1 + x7.1 + x8.1 + ((len - 7#32) * 8#32).toNat,
        (⟨fb, tag, len, x.2, x4.2, x5.2, x6.2, x7.2, x8.2⟩ : Iods)))
      (fun b => bits b.od_id ++ bits b.od_profile_level ++ bits b.scene_profile_level ++ bits b.audio_profile_level ++
        bits b.video_profile_level ++ bits b.graphics_profile_level)
      fun b => b.toFullBox = fb ∧ b.type_tag = tag ∧ b.descriptor_length = len := by
    refine ReadsFrom.start ?_
    refine ReadsFrom.bind (reads_uint 16 (by decide)) fun _ _ _ => ?_
    refine ReadsFrom.bind (reads_uint 8 (by decide)) fun _ _ _ => ?_
    refine ReadsFrom.bind (reads_uint 8 (by decide)) fun _ _ _ => ?_
    refine ReadsFrom.bind (reads_uint 8 (by decide)) fun _ _ _ => ?_
    refine ReadsFrom.bind (reads_uint 8 (by decide)) fun _ _ _ => ?_
    refine ReadsFrom.bind (reads_uint 8 (by decide)) fun _ _ _ => ?_
    exact ReadsFrom.ret ⟨by simp, rfl, rfl, rfl⟩
  obtain ⟨e3, hfb, ht, hd⟩ := hrest d s3 n b s' h
  have hlen : s2.length = 32 + s3.length := by
    have a1 := congrArg List.length e1
    have a2 := congrArg List.length e2
    have a3 := congrArg List.length e3
    simp only [Layout.iods, List.length_append, lenBits_length, hfb, ht] at hl a1 a2 a3
    omega
  have e4 := read_uvarint_four h3 hlen
  rw [e1, e2, e4, e3, Layout.iods, hfb, ht, hd]
  simp

theorem Meta.reads : ∀ d s n b s', Meta.readData.run d s = .ok ((n, b), s') →
    b = ⟨⟨0, 0, 0, 0⟩⟩ ∧ s.length = 32 + s'.length := by
  intro d s n b s' h
  rw [Meta.readData] at h
  simp only [bind_eq, pure_eq] at h
  rw [run_bind] at h
  cases h1 : FullBox.readVersionAndFlag.run d s with
  | error e => rw [h1] at h; cases h
  | ok x1 =>
  obtain ⟨⟨n1, fb⟩, s1⟩ := x1
  obtain ⟨e1, -⟩ := reads_fullBox d s n1 fb s1 h1
  have e2 := Meta.read_any ⟨fb⟩ d s1
  rw [Layout.meta, ← e1] at e2
  rw [Meta.readData] at e2
  simp only [bind_eq, pure_eq] at e2
  rw [run_bind] at e2
  have he := e2.symm.trans h
  cases he
  have hl := congrArg List.length e1
  simp only [fbits, List.length_append, bits_length] at hl
  exact ⟨rfl, by omega⟩

end Mp4
