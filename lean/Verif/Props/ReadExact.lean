import Verif.Lemmas.ReadExact
import Verif.Props.RoundTripB

/-!
# C25: what `readData` reports, for every input

`SimpleReader` finds the first child box (or the next box) from the number of bits `readData` reports.  Here `d` is an
arbitrary box payload, not only one this library wrote.
-/

namespace Mp4
open R

private theorem acc_wrap {α β : Type} {d : List Byte} {s : List Bool} {n : Nat} {p : R (Nat × α)} {g : α → β}
    (h : AccAt d s n p) : AccAt d s n (p.bind fun x => .ret (x.1, g x.2)) := by
  intro m b s' hr
  rw [run_bind] at hr
  cases hp : p.run d s with
  | error e => rw [hp] at hr; cases hr
  | ok x => rw [hp] at hr; cases hr; exact h _ _ _ hp

private theorem over_wrap {α β : Type} {X : Nat → α → List Bool → Prop} {p : R (Nat × α)} {g : α → β}
    (h : Over X 0 p) {d : List Byte} {s : List Bool} {m : Nat} {b : β} {s' : List Bool}
    (hr : (p.bind fun x => .ret (x.1, g x.2)).run d s = .ok ((m, b), s')) :
    ∃ c e a, p.run d s = .ok ((m, a), s') ∧ s = c ++ s' ∧ X e a s' ∧ b = g a ∧ m = c.length + e := by
  rw [run_bind] at hr
  cases hp : p.run d s with
  | error e => rw [hp] at hr; cases hr
  | ok x =>
    obtain ⟨⟨k, a⟩, s1⟩ := x
    rw [hp] at hr
    cases hr
    obtain ⟨c, e, e1, hx, hm⟩ := h _ _ _ _ _ hp
    exact ⟨c, e, a, rfl, e1, hx, rfl, by omega⟩

private theorem suffix_drop {c s' s : List Bool} (h : s = c ++ s') : s' = s.drop c.length := by
  rw [h, List.drop_left]

/-- **C25.** For every payload `d`: whenever `readData` of any box class other than `iods`, `esds` and `avcC` returns,
the number of bits it reports is exactly the number of bits it consumed - in particular it never reports more than the
payload holds. -/
theorem C25_exact (env : Env) (t : BoxType) (wave : Bool) (k : Kind) (hk : k ≠ .iods ∧ k ≠ .esds ∧ k ≠ .avcC)
    (d : List Byte) (m : Nat) (b : BoxData) (s' : List Bool)
    (hr : (BoxData.readData env t wave k).run d (bytesBits d) = .ok ((m, b), s')) :
    m ≤ 8 * d.length ∧ s' = (bytesBits d).drop m := by
  have hs : AtByte d (bytesBits d) := ⟨by simp, List.suffix_refl _⟩
  suffices h : AccAt d (bytesBits d) 0 (BoxData.readData env t wave k) by
    obtain ⟨c, e, f⟩ := h m b s' hr
    have hl := congrArg List.length e
    rw [List.length_append, bytesBits_length] at hl
    refine ⟨by omega, ?_⟩
    rw [f, Nat.zero_add]
    exact suffix_drop e
  clear hr
  cases k with
  | iods => exact absurd rfl hk.1
  | esds => exact absurd rfl hk.2.1
  | avcC => exact absurd rfl hk.2.2
  | empty => exact ExactFrom.ret rfl d _
  | btrt => exact acc_wrap (exact_btrt _ _)
  | pasp => exact acc_wrap (exact_pasp _ _)
  | fiel => exact acc_wrap (exact_fiel _ _)
  | smhd => exact acc_wrap (exact_smhd _ _)
  | vmhd => exact acc_wrap (exact_vmhd _ _)
  | mfhd => exact acc_wrap (exact_mfhd _ _)
  | mfro => exact acc_wrap (exact_mfro _ _)
  | dref => exact acc_wrap (exact_dref _ _)
  | stsd => exact acc_wrap (exact_stsd _ _)
  | trex => exact acc_wrap (exact_trex _ _)
  | mvhd => exact acc_wrap (exact_mvhd _ _)
  | tkhd => exact acc_wrap (exact_tkhd _ _)
  | mdhd => exact acc_wrap (exact_mdhd _ _)
  | mehd => exact acc_wrap (exact_mehd _ _)
  | tfdt => exact acc_wrap (exact_tfdt _ _)
  | elst => exact acc_wrap (exact_elst _ _)
  | sidx => exact acc_wrap (exact_sidx _ _)
  | stts => exact acc_wrap (exact_stts _ _)
  | ctts => exact acc_wrap (exact_ctts _ _)
  | stsc => exact acc_wrap (exact_stsc _ _)
  | stco => exact acc_wrap (exact_stco _ _)
  | co64 => exact acc_wrap (exact_co64 _ _)
  | stss => exact acc_wrap (exact_stss _ _)
  | stsz => exact acc_wrap (exact_stsz _ _)
  | sdtp => exact acc_wrap (exact_sdtp _ _)
  | sbgp => exact acc_wrap ((exact_sbgp _) _ _)
  | tfhd => exact acc_wrap ((exact_tfhd _) _ _)
  | tfra => exact acc_wrap (exact_tfra _ _)
  | trun => exact acc_wrap ((exact_trun _) _ _)
  | av1C => exact acc_wrap (exact_av1C _ _)
  | vpcC => exact acc_wrap (exact_vpcC _ _)
  | dOps => exact acc_wrap (exact_dOps _ _)
  | visual => exact acc_wrap ((exact_visual _) _ _)
  | audio => exact acc_wrap ((exact_audio _) _ _)
  | hdlr => exact acc_wrap (acc_hdlr hs)
  | url => exact acc_wrap ((exact_url _) _ _)
  | urn => exact acc_wrap ((exact_urn _) _ _)
  | emsg => exact acc_wrap (exact_emsg _ _)
  | data => exact acc_wrap (exact_data _ _)
  | colr => exact acc_wrap ((exact_colr _) _ _)
  | pssh => exact acc_wrap ((exact_pssh _) _ _)
  | ftyp => exact acc_wrap (exact_ftyp _ _)
  | metaBox => exact acc_wrap (exact_meta _ _)
  | opaq => exact acc_wrap (exact_opaque _ _)
  | sgpd => exact acc_wrap ((exact_sgpd _) _ _)

/-- the hypotheses are met: a `stco` payload with one entry and three trailing bytes -/
example (env : Env) (t : BoxType) : ∃ b s', (BoxData.readData env t false .stco).run
    [0, 0, 0, 0, 0, 0, 0, 1, 0, 0, 0x30, 0, 9, 9, 9] (bytesBits [0, 0, 0, 0, 0, 0, 0, 1, 0, 0, 0x30, 0, 9, 9, 9])
    = .ok ((96, b), s') := ⟨_, _, rfl⟩

/-- **C25**, `avcC`: the reader consumes a prefix and reports that, or - for a high-profile record followed by fewer
than four bytes, which it skips - the whole payload; never more than the payload holds. -/
theorem C25_avcC (env : Env) (t : BoxType) (wave : Bool) (d : List Byte) (m : Nat) (b : BoxData) (s' : List Bool)
    (hr : (BoxData.readData env t wave .avcC).run d (bytesBits d) = .ok ((m, b), s')) :
    ∃ c ≤ 8 * d.length, s' = (bytesBits d).drop c ∧ (m = c ∨ (8 * d.length < c + 32 ∧ m = 8 * d.length)) := by
  obtain ⟨c, e, a, h0, e1, hx, -, hm⟩ := over_wrap (over_avcC env.avcC) hr
  have hk := keeps_avcC env.avcC d _ _ _ (by simp) h0
  have hl := congrArg List.length e1
  rw [List.length_append, bytesBits_length] at hl
  refine ⟨c.length, by omega, suffix_drop e1, ?_⟩
  rcases hx with hx | ⟨hx, hy⟩ <;> omega

/-- a high-profile `avcC` record without parameter sets, followed by two bytes: 56 bits consumed, 72 reported -/
example (env : Env) (t : BoxType) : ∃ b s', (BoxData.readData env t false .avcC).run
    [1, 100, 0, 31, 0xff, 0xe0, 0, 9, 9] (bytesBits [1, 100, 0, 31, 0xff, 0xe0, 0, 9, 9])
    = .ok ((72, b), s') ∧ s'.length = 16 := ⟨_, _, rfl, rfl⟩

/-- **C25**, `esds`: the reader consumes a prefix and reports that, or - when it meets an unknown tag - one byte MORE
than the payload holds.  `C25_esds_over_report` shows that the second case occurs. -/
theorem C25_esds (env : Env) (t : BoxType) (wave : Bool) (d : List Byte) (m : Nat) (b : BoxData) (s' : List Bool)
    (hr : (BoxData.readData env t wave .esds).run d (bytesBits d) = .ok ((m, b), s')) :
    ∃ c ≤ 8 * d.length, s' = (bytesBits d).drop c ∧ (m = c ∨ m = 8 * (d.length + 1)) := by
  obtain ⟨c, e, a, h0, e1, hx, -, hm⟩ := over_wrap (over_esds env.esds) hr
  have hk := keeps_esds env.esds d _ _ _ (by simp) h0
  have hl := congrArg List.length e1
  rw [List.length_append, bytesBits_length] at hl
  refine ⟨c.length, by omega, suffix_drop e1, ?_⟩
  rcases hx with hx | hx <;> omega

/-- Every `esds` payload that consists of the version and flags, a tag other than 3, 4, 5 and 6, and any further bytes is
over-reported by one byte. -/
theorem C25_esds_over_report (env : Env) (t : BoxType) (wave : Bool) (v f1 f2 f3 tag : Byte) (tail : List Byte)
    (ht : tag ≠ 3#8 ∧ tag ≠ 4#8 ∧ tag ≠ 5#8 ∧ tag ≠ 6#8) :
    ∃ b s', (BoxData.readData env t wave .esds).run (v :: f1 :: f2 :: f3 :: tag :: tail)
        (bytesBits (v :: f1 :: f2 :: f3 :: tag :: tail))
      = .ok ((8 * ((v :: f1 :: f2 :: f3 :: tag :: tail).length + 1), b), s') := by
  have hv : bytesBits (v :: f1 :: f2 :: f3 :: tag :: tail)
      = fbits ⟨v, f1, f2, f3⟩ ++ bytesBits (tag :: tail) := by
    simp [fbits]
  obtain ⟨rest, h⟩ := Esds.read_unknown_tag env.esds ⟨v, f1, f2, f3⟩
    tag ht [] (by simp) tail (v :: f1 :: f2 :: f3 :: tag :: tail)
  refine ⟨.esds ⟨⟨v, f1, f2, f3⟩, []⟩, rest, ?_⟩
  have hd : BoxData.readData env t wave .esds
      = (Esds.readData env.esds).bind fun x => .ret (x.1, BoxData.esds x.2) := rfl
  simp only [List.flatMap_nil, List.nil_append, List.map_nil, List.sum_nil] at h
  rw [hd, hv, run_bind, h]
  have hn : 4 + 0 + (1 + tail.length) + 1 = (v :: f1 :: f2 :: f3 :: tag :: tail).length + 1 := by simp; omega
  rw [hn]
  rfl

/-- **C25**, `iods`: on top of what it consumed the reader reports `(descriptor length - 7) * 8`, computed modulo
`2^32`. -/
theorem C25_iods (env : Env) (t : BoxType) (wave : Bool) (d : List Byte) (m : Nat) (b : BoxData) (s' : List Bool)
    (hr : (BoxData.readData env t wave .iods).run d (bytesBits d) = .ok ((m, b), s')) :
    ∃ x : Iods, b = .iods x ∧ ∃ c ≤ 8 * d.length, s' = (bytesBits d).drop c ∧
      m = c + (8 * x.descriptor_length.toNat + (2 ^ 32 - 56)) % 2 ^ 32 := by
  obtain ⟨c, e, a, -, e1, hx, hb, hm⟩ := over_wrap over_iods hr
  have hl := congrArg List.length e1
  rw [List.length_append, bytesBits_length] at hl
  refine ⟨a, hb, c.length, by omega, suffix_drop e1, ?_⟩
  rw [IodsOver] at hx
  rw [hm, hx]
  simp only [BitVec.toNat_mul, BitVec.toNat_sub, BitVec.toNat_ofNat]
  omega

/-- an `iods` payload with descriptor length 16 -/
example (env : Env) (t : BoxType) : ∃ b s', (BoxData.readData env t false .iods).run
    [0, 0, 0, 0, 16, 0x80, 0x80, 0x80, 16, 0, 0, 1, 2, 3, 4, 5] (bytesBits
    [0, 0, 0, 0, 16, 0x80, 0x80, 0x80, 16, 0, 0, 1, 2, 3, 4, 5]) = .ok ((200, b), s') ∧ s' = [] := ⟨_, _, rfl, rfl⟩

end Mp4
