import Verif.Lemmas.Rewrite

/-!
# C62: reading loses nothing - a box that was read can be written, and gives back the bits that were read

`d` is the payload of a box, arbitrary bytes: not only bytes that this library wrote.  `s'` is what `readData` left unread.
-/

namespace Mp4
open R

/-- **C62.** Whatever `readData` of any class returned for any payload, `writeData` accepts, and it reports `getDataSize`. -/
theorem C62_writable (env : Env) (t : BoxType) (wave : Bool) (k : Kind) (d : List Byte) (n : Nat) (b : BoxData) (s' : List Bool)
    (h : (BoxData.readData env t wave k).run d (bytesBits d) = .ok ((n, b), s')) :
    b.writeData.res = .ok (8 * b.getDataSize) ∧ b.writeData.out.length = 8 * b.getDataSize := by
  obtain ⟨h1, h2⟩ := BoxData.reads_ok h
  rw [BoxData.write_eq b h1 h2]
  exact ⟨rfl, BoxData.size_eq b h1 h2⟩

/-- **C62.** For every payload: `writeData` of the box that `readData` returned produces exactly the bits that `readData`
consumed, for all classes all of whose fields have one encoding. -/
theorem C62_rewrite (env : Env) (t : BoxType) (wave : Bool) (k : Kind) (hk : k.oneForm wave = true) (d : List Byte) (n : Nat)
    (b : BoxData) (s' : List Bool) (h : (BoxData.readData env t wave k).run d (bytesBits d) = .ok ((n, b), s')) :
    bytesBits d = b.writeData.out ++ s' := by
  obtain ⟨h0, h1, h2⟩ := BoxData.reads env t wave k hk d _ n b s' h
  rw [BoxData.write_eq b h1 h2]
  exact h0

/-- **C62.** For the classes with strings or a length field: if the box that `readData` returned is as large as what was
consumed, then `writeData` produces exactly the bits consumed. -/
theorem C62_rewrite_same_size (env : Env) (t : BoxType) (wave : Bool) (k : Kind) (d : List Byte) (n : Nat)
    (b : BoxData) (s' : List Bool) (h : (BoxData.readData env t wave k).run d (bytesBits d) = .ok ((n, b), s'))
    (hb : b.LengthDetermines) (hl : 8 * d.length = 8 * b.getDataSize + s'.length) :
    bytesBits d = b.writeData.out ++ s' := by
  obtain ⟨h1, h2⟩ := BoxData.reads_ok h
  rw [BoxData.write_eq b h1 h2]
  exact BoxData.reads_length h hb (by rw [BoxData.size_eq b h1 h2, bytesBits_length, hl])

private theorem url_reads (old : Url) (d : List Byte) (s : List Bool) (n : Nat) (u : Url) (s' : List Bool)
    (h : (Url.readData old).run d s = .ok ((n, u), s')) :
    ∃ c, s = c ++ s' ∧ (Layout.url u = c ∨ Layout.url u = c ++ bits 0#8) := by
  rw [Url.readData] at h
  simp only [bind_eq, pure_eq] at h
  rw [run_bind] at h
  cases h1 : FullBox.readVersionAndFlag.run d s with
  | error e => rw [h1] at h; cases h
  | ok x =>
    obtain ⟨⟨n1, fb⟩, s1⟩ := x
    rw [h1] at h
    obtain ⟨e1, -⟩ := reads_fullBox d _ n1 fb s1 h1
    dsimp only at h
    split at h
    · next hf =>
      have h : ((read_string _).bind fun x => .ret (n1 + x.1, ({ toFullBox := fb, location := x.2 } : Url))).run d s1 = _ := h
      rw [run_bind] at h
      cases h2 : (read_string (s1.length / 8 * 8)).run d s1 with
      | error e => rw [h2] at h; cases h
      | ok y =>
        obtain ⟨⟨n2, l⟩, s2⟩ := y
        rw [h2] at h
        cases h
        have hbox : Layout.url { toFullBox := fb, location := l } = fbits fb ++ strBits l := by
          simp [Layout.url, onlyIf, hf]
        rw [hbox]
        obtain ⟨-, e2 | ⟨e2, -⟩⟩ := readStringGo_inv h2
        · exact ⟨fbits fb ++ strBits l, by rw [e1, e2]; simp, Or.inl rfl⟩
        · exact ⟨fbits fb ++ l.flatMap bits, by rw [e1, e2]; simp, Or.inr (by simp [strBits])⟩
    · next hf =>
      cases h
      exact ⟨fbits fb, e1, Or.inl (by simp [Layout.url, onlyIf, hf])⟩

/-- **C62.** A URL entry: the bits written are those consumed, or those and a NUL byte that the file lacked. -/
theorem C62_url (env : Env) (t : BoxType) (wave : Bool) (d : List Byte) (n : Nat) (b : BoxData) (s' : List Bool)
    (h : (BoxData.readData env t wave .url).run d (bytesBits d) = .ok ((n, b), s')) :
    ∃ c, bytesBits d = c ++ s' ∧ (b.writeData.out = c ∨ b.writeData.out = c ++ bits 0#8) := by
  obtain ⟨h1, h2⟩ := BoxData.reads_ok h
  rw [BoxData.write_eq b h1 h2]
  obtain ⟨u, hb, h'⟩ := box_inv (p := Url.readData env.url) (C := BoxData.url) h
  subst hb
  exact url_reads env.url d _ n u s' h'

private theorem meta_reads (d : List Byte) (n : Nat) (u : Meta) (s' : List Bool)
    (h : Meta.readData.run d (bytesBits d) = .ok ((n, u), s')) : u = ⟨⟨0, 0, 0, 0⟩⟩ ∧ s' = bytesBits (d.drop 4) := by
  obtain ⟨hu, hl⟩ := Meta.reads d _ n u s' h
  refine ⟨hu, ?_⟩
  have hc : ∃ c, bytesBits d = c ++ s' := by
    rw [Meta.readData] at h
    simp only [bind_eq, pure_eq] at h
    rw [run_bind] at h
    cases h1 : FullBox.readVersionAndFlag.run d (bytesBits d) with
    | error e => rw [h1] at h; cases h
    | ok x =>
      obtain ⟨⟨n1, fb⟩, s1⟩ := x
      rw [h1] at h
      obtain ⟨e1, -⟩ := reads_fullBox d _ n1 fb s1 h1
      dsimp only at h
      split at h <;> (cases h; exact ⟨_, e1⟩)
  obtain ⟨c, hc⟩ := hc
  have hcl : c.length = 32 := by
    have := congrArg List.length hc
    rw [List.length_append] at this
    omega
  have : (bytesBits d).drop 32 = s' := by rw [hc, ← hcl, List.drop_left]
  rw [← this, bytesBits_drop]

/-- **C62.** `meta`: four bytes are consumed, and what is written are four zero bytes whatever they were. -/
theorem C62_meta (env : Env) (t : BoxType) (wave : Bool) (d : List Byte) (n : Nat) (b : BoxData) (s' : List Bool)
    (h : (BoxData.readData env t wave .metaBox).run d (bytesBits d) = .ok ((n, b), s')) :
    s' = bytesBits (d.drop 4) ∧ b.writeData.out = bytesBits [0, 0, 0, 0] := by
  obtain ⟨u, hb, h'⟩ := box_inv (p := Meta.readData) (C := BoxData.metaBox) h
  obtain ⟨rfl, hs⟩ := meta_reads d n u s' h'
  subst hb
  exact ⟨hs, by rfl⟩

/-- **C62.** `stsz` with a common sample size: the sample count is lost - the rewritten box says zero. -/
theorem C62_stsz_const (env : Env) (t : BoxType) (wave : Bool) (fb : FullBox) (size count : BitVec 32) (d : List Byte)
    (s' : List Bool) (hd : bytesBits d = fbits fb ++ bits size ++ bits count ++ s') (hs : size ≠ 0) :
    ∃ b, (BoxData.readData env t wave .stsz).run d (bytesBits d) = .ok ((96, b), s') ∧
      b.writeData.out = fbits fb ++ bits size ++ bits 0#32 := by
  refine ⟨.stsz ⟨fb, size, []⟩, ?_, ?_⟩
  · show (Stsz.readData.bind fun x => .ret (x.1, BoxData.stsz x.2)).run d _ = _
    rw [run_bind]
    have : Stsz.readData.run d (bytesBits d) = .ok ((96, ⟨fb, size, []⟩), s') := by
      rw [hd]
      simp [Stsz.readData, rd, show ¬ size = 0#32 from hs]
    rw [this]
    rfl
  · show (Stsz.writeData _).out = _
    rw [Stsz.write_eq]
    simp [Layout.stsz, show ¬ size = 0#32 from hs, cbits, bits]

/-! ### cases that meet the hypotheses -/

/-- A time-to-sample table of two entries, and two more bytes. -/
def C62_stts : List Byte :=
  [0, 0, 0, 0, 0, 0, 0, 2, 0, 0, 0, 1, 0, 0, 0, 2, 0, 0, 0, 3, 0, 0, 0, 4, 0xaa, 0xbb]

example (env : Env) : (BoxData.readData env (fourcc "stts") false .stts).run C62_stts (bytesBits C62_stts)
      = .ok ((192, .stts ⟨⟨0, 0, 0, 0⟩, [⟨1, 2⟩, ⟨3, 4⟩]⟩), bytesBits [0xaa#8, 0xbb#8]) ∧
    bytesBits C62_stts = (BoxData.stts ⟨⟨0, 0, 0, 0⟩, [⟨1, 2⟩, ⟨3, 4⟩]⟩).writeData.out ++ bytesBits [0xaa#8, 0xbb#8] := by
  have h : (BoxData.readData env (fourcc "stts") false .stts).run C62_stts (bytesBits C62_stts)
      = .ok ((192, .stts ⟨⟨0, 0, 0, 0⟩, [⟨1, 2⟩, ⟨3, 4⟩]⟩), bytesBits [0xaa#8, 0xbb#8]) := by rfl
  exact ⟨h, C62_rewrite _ _ _ _ rfl _ _ _ _ h⟩

/-- A URL entry with a terminated string of one letter; the size condition holds. -/
example (env : Env) : bytesBits [0, 0, 0, 0, 0x61, 0] = (BoxData.url ⟨⟨0, 0, 0, 0⟩, [0x61]⟩).writeData.out ++ [] := by
  refine C62_rewrite_same_size env (fourcc "url ") false .url _ 48 _ [] ?_ trivial (by decide)
  rfl

/-- The same without the terminator: it is added. -/
example (env : Env) : (BoxData.readData env (fourcc "url ") false .url).run [0, 0, 0, 0, 0x61] (bytesBits [0, 0, 0, 0, 0x61])
      = .ok ((40, .url ⟨⟨0, 0, 0, 0⟩, [0x61]⟩), []) ∧
    (BoxData.url ⟨⟨0, 0, 0, 0⟩, [0x61]⟩).writeData.out = bytesBits [0, 0, 0, 0, 0x61, 0] := ⟨by rfl, by rfl⟩

/-- `iods` with its length in four bytes. -/
example (env : Env) : bytesBits [0, 0, 0, 0, 0x10, 0x80, 0x80, 0x80, 0x07, 0, 0x4f, 0xff, 0xff, 0xff, 0xff, 0xff]
    = (BoxData.iods ⟨⟨0, 0, 0, 0⟩, 0x10, 7, 0x4f, 0xff, 0xff, 0xff, 0xff, 0xff⟩).writeData.out ++ [] := by
  refine C62_rewrite_same_size env (fourcc "iods") false .iods _ 128 _ [] ?_ trivial (by decide)
  rfl

/-- `meta` with a nonzero flag. -/
example (env : Env) : (BoxData.readData env (fourcc "meta") false .metaBox).run [0, 0, 0, 1] (bytesBits [0, 0, 0, 1])
    = .ok ((32, .metaBox ⟨⟨0, 0, 0, 0⟩⟩), []) := by rfl

end Mp4
