import Verif.Spec.Device
import Verif.Spec.Crash
import Verif.Lemmas.Faststart

/-! # Writing on a device that can fail -/

namespace Mp4

theorem OStream.write_nil (os : OStream) : os.write [] = os := by simp [OStream.write]

namespace FStream

/-- What has been done when `l` was stored completely. -/
def stored (s : FStream) (l : List Byte) : FStream := {
  s with
  os := s.os.write l
  tries := s.tries + l.length
  log := s.log ++ storesAt s.os.pos l }

/-- What has been done when the byte after the first `k` bytes of `l` was refused. -/
def stopped (s : FStream) (l : List Byte) (k : Nat) : FStream :=
  { s with
    os := s.os.write (l.take k)
    tries := s.tries + k + 1
    refused := (s.os.pos + k) :: s.refused
    log := s.log ++ storesAt s.os.pos (l.take k) }

theorem _root_.Mp4.storesAt_append (a b : List Byte) : ∀ o, storesAt o (a ++ b) = storesAt o a ++ storesAt (o + a.length) b := by
  induction a with
  | nil => intro o; rfl
  | cons x a ih =>
    intro o
    rw [List.cons_append, storesAt, storesAt, ih, List.cons_append, List.length_cons, Nat.add_right_comm, Nat.add_assoc]

theorem stored_nil (s : FStream) : s.stored [] = s := by simp [stored, OStream.write_nil, storesAt]

theorem stored_append (s : FStream) (a b : List Byte) : (s.stored a).stored b = s.stored (a ++ b) := by
  simp [stored, OStream.write_append, Nat.add_assoc, storesAt_append]

theorem stored_stopped (s : FStream) (a b : List Byte) (k : Nat) : (s.stored a).stopped b k = s.stopped (a ++ b) (a.length + k) := by
  simp only [stored, stopped, OStream.write_pos, List.take_append, List.take_of_length_le (show a.length ≤ a.length + k by omega),
    Nat.add_sub_cancel_left, OStream.write_append]
  simp [Nat.add_assoc, storesAt_append]

theorem copyOut_cases (dev : Device) (l : List Byte) : ∀ s : FStream,
    s.copyOut dev l = s.stored l ∨
    ∃ k, k < l.length ∧ s.copyOut dev l = s.stopped l k ∧ dev.put (s.tries + k) (s.os.pos + k) = false := by
  induction l with
  | nil => intro s; left; rw [copyOut, stored_nil]
  | cons b l ih =>
    intro s
    rw [copyOut]
    by_cases h : dev.put s.tries s.os.pos = true
    · have e : s.sputc dev b = (true, s.stored [b]) := by rw [sputc, if_pos h]; rfl
      rw [e]
      dsimp only
      rcases ih (s.stored [b]) with h1 | ⟨k, hk, h1, h2⟩
      · left; rw [h1, stored_append]; rfl
      · right
        refine ⟨k + 1, by simp; omega, ?_, ?_⟩
        · rw [h1, stored_stopped, Nat.add_comm]; rfl
        · have := h2
          simp only [stored, OStream.write_pos, List.length_singleton] at this
          rw [show s.tries + (k + 1) = s.tries + 1 + k by omega, show s.os.pos + (k + 1) = s.os.pos + 1 + k by omega]
          exact this
    · right
      refine ⟨0, by simp, ?_, ?_⟩
      · rw [sputc, if_neg h]
        simp [stopped, OStream.write_nil, storesAt]
      · simpa using h

theorem copyOut_good (dev : Device) (l : List Byte) (s : FStream) : (s.copyOut dev l).good = s.good := by
  rcases copyOut_cases dev l s with h | ⟨k, -, h, -⟩ <;> rw [h] <;> rfl

/-- Bytes at accepted positions are stored. -/
theorem copyOut_accepted (dev : Device) (l : List Byte) (s : FStream)
    (h : ∀ k, k < l.length → dev.put (s.tries + k) (s.os.pos + k) = true) : s.copyOut dev l = s.stored l := by
  rcases copyOut_cases dev l s with h1 | ⟨k, hk, -, h2⟩
  · exact h1
  · rw [h k hk] at h2; cases h2

end FStream

/-! ### Bits -/

/-- Seven bits do not touch the stream. -/
theorem FWriter.push_short (dev : Device) (bs : List Bool) : ∀ (s : FStream) (os : OStream) (o : Byte) (w : Nat), w + bs.length < 8 →
    ∃ o', (Writer.mk os o w).push bs = ⟨os, o', w + bs.length⟩ ∧ FWriter.push dev bs ⟨s, o, w⟩ = (true, ⟨s, o', w + bs.length⟩) := by
  induction bs with
  | nil => intro s os o w _; exact ⟨o, rfl, rfl⟩
  | cons b bs ih =>
    intro s os o w h
    rw [List.length_cons] at h
    obtain ⟨o', h1, h2⟩ := ih s os (if b then o ||| (1#8 <<< (7 - w)) else o) (w + 1) (by omega)
    refine ⟨o', ?_, ?_⟩
    · show (Writer.writeBit ⟨os, o, w⟩ b).push bs = _
      have : Writer.writeBit ⟨os, o, w⟩ b = ⟨os, if b then o ||| (1#8 <<< (7 - w)) else o, w + 1⟩ := by
        unfold Writer.writeBit
        rw [if_neg (show ¬ w + 1 = 8 by omega)]
      rw [this, h1, List.length_cons]
      congr 1; omega
    · rw [FWriter.push]
      have : FWriter.writeBit dev ⟨s, o, w⟩ b = (true, ⟨s, if b then o ||| (1#8 <<< (7 - w)) else o, w + 1⟩) := by
        unfold FWriter.writeBit
        rw [if_neg (show ¬ w + 1 = 8 by omega)]
      rw [this]
      dsimp only
      rw [h2, List.length_cons]
      congr 2; omega

theorem FWriter.push_append (dev : Device) (a b : List Bool) : ∀ w : FWriter,
    FWriter.push dev (a ++ b) w = if (FWriter.push dev a w).1 then FWriter.push dev b (FWriter.push dev a w).2 else FWriter.push dev a w := by
  induction a with
  | nil => intro w; rfl
  | cons x a ih =>
    intro w
    rw [List.cons_append, FWriter.push, FWriter.push]
    rcases hw : w.writeBit dev x with ⟨ok, w'⟩
    cases ok with
    | true => exact ih w'
    | false => rfl

/-- One byte through a writer at a byte boundary. -/
theorem FWriter.push_byte (dev : Device) (s : FStream) (b : Byte) : ∃ o,
    FWriter.push dev (bytesBits [b]) ⟨s, 0, 0⟩ =
      if (s.writeByte dev b).good then (true, ⟨s.writeByte dev b, 0, 0⟩) else (false, ⟨s.writeByte dev b, o, 8⟩) := by
  have hl : (bytesBits [b]).length = 8 := by rw [bytesBits_length]; rfl
  obtain ⟨a, x, hax⟩ : ∃ a x, bytesBits [b] = a ++ [x] := by
    rcases List.eq_nil_or_concat (bytesBits [b]) with h | ⟨a, x, h⟩
    · rw [h] at hl; cases hl
    · exact ⟨a, x, by rw [h, List.concat_eq_append]⟩
  have ha : a.length = 7 := by have := congrArg List.length hax; simp [hl] at this; omega
  obtain ⟨o, h1, h2⟩ := FWriter.push_short dev a s ⟨[], 0⟩ 0 0 (by omega)
  have hp := Writer.push_bytes ⟨[], 0⟩ [b]
  rw [hax, Writer.push_append, show Writer.new ⟨[], 0⟩ = ⟨⟨[], 0⟩, 0, 0⟩ from rfl, h1, ha] at hp
  have ho : (if x then o ||| (1#8 <<< (7 - 7)) else o) = b := by
    simp only [Writer.push, List.foldl, Writer.writeBit, Nat.zero_add, OStream.write] at hp
    simpa using hp
  refine ⟨b, ?_⟩
  rw [hax, FWriter.push_append, h2, ha]
  simp only [if_true, FWriter.push, FWriter.writeBit, Nat.zero_add]
  rw [ho]
  by_cases hg : (s.writeByte dev b).good = true
  · simp [hg]
  · simp [hg]

theorem FWriter.push_bytes (dev : Device) (l : List Byte) : ∀ s : FStream, s.good = true →
    (FWriter.push dev (bytesBits l) ⟨s, 0, 0⟩ = (true, ⟨s.stored l, 0, 0⟩) ∧
      ∀ b l', l = b :: l' → dev.put s.tries s.os.pos = true) ∨
    ∃ k w, k < l.length ∧ FWriter.push dev (bytesBits l) ⟨s, 0, 0⟩ = (false, w) ∧ w.s = { s.stopped l k with good := false } ∧
      dev.put (s.tries + k) (s.os.pos + k) = false := by
  induction l with
  | nil => intro s _; left; rw [FStream.stored_nil]; exact ⟨rfl, by simp⟩
  | cons b l ih =>
    intro s hg
    obtain ⟨o, hb⟩ := FWriter.push_byte dev s b
    rw [show bytesBits (b :: l) = bytesBits [b] ++ bytesBits l by simp [bytesBits], FWriter.push_append, hb]
    by_cases h : dev.put s.tries s.os.pos = true
    · have e : s.writeByte dev b = s.stored [b] := by
        rw [FStream.writeByte, if_pos hg, FStream.sputc, if_pos h]; rfl
      have hg' : (s.stored [b]).good = true := hg
      rw [e, if_pos hg', if_pos rfl]
      rcases ih (s.stored [b]) hg' with ⟨h1, -⟩ | ⟨k, w, hk, h1, h2, h3⟩
      · left; rw [h1, FStream.stored_append]; exact ⟨rfl, fun _ _ _ => h⟩
      · right
        refine ⟨k + 1, w, by simp; omega, h1, ?_, ?_⟩
        · rw [h2, FStream.stored_stopped, Nat.add_comm]; rfl
        · have := h3
          simp only [FStream.stored, OStream.write_pos, List.length_singleton] at this
          rw [show s.tries + (k + 1) = s.tries + 1 + k by omega, show s.os.pos + (k + 1) = s.os.pos + 1 + k by omega]
          exact this
    · right
      have e : s.writeByte dev b = { s.stopped (b :: l) 0 with good := false } := by
        rw [FStream.writeByte, if_pos hg, FStream.sputc, if_neg h]
        simp [FStream.stopped, OStream.write_nil, storesAt]
      have hn : ¬ (s.writeByte dev b).good = true := by rw [e]; simp
      rw [if_neg hn, if_neg (by simp)]
      exact ⟨0, _, by simp, rfl, e, by simpa using h⟩

/-! ### Boxes and trees -/

/-- Some byte at or before position `o` was refused. -/
def Doomed (dev : Device) (s : FStream) (o : Nat) : Prop := ∃ t p, t < s.tries ∧ p ≤ o ∧ dev.put t p = false

theorem Doomed.mono {dev : Device} {s s' : FStream} {o o' : Nat} (h : Doomed dev s o) (ht : s.tries ≤ s'.tries) (ho : o ≤ o') :
    Doomed dev s' o' := by
  obtain ⟨t, p, h1, h2, h3⟩ := h
  exact ⟨t, p, by omega, by omega, h3⟩

theorem Doomed.refuses {dev : Device} (hm : dev.Monotone) {s : FStream} {o : Nat} (h : Doomed dev s o) {t p : Nat} (ht : s.tries ≤ t)
    (hp : o ≤ p) : dev.put t p = false := by
  obtain ⟨t0, p0, h1, h2, h3⟩ := h
  exact hm t0 p0 t p h3 (by omega) (by omega)

/-- From `s` on the device refuses something at a position below `N`, or a seek. -/
def Fails (dev : Device) (s : FStream) (N : Nat) : Prop :=
  ∃ t, s.tries ≤ t ∧ ((∃ p, p < N ∧ dev.put t p = false) ∨ ∃ p, dev.seek t p = false)

theorem Fails.mono {dev : Device} {s s' : FStream} {N N' : Nat} (h : Fails dev s' N) (ht : s.tries ≤ s'.tries) (hN : N ≤ N') :
    Fails dev s N' := by
  obtain ⟨t, h1, h2⟩ := h
  refine ⟨t, by omega, ?_⟩
  rcases h2 with ⟨p, h2, h3⟩ | h2
  · exact .inl ⟨p, by omega, h3⟩
  · exact .inr h2

/-- Between `s` and `s'` a byte was refused at a position below `N`. -/
def Lost (dev : Device) (s s' : FStream) (N : Nat) : Prop :=
  s'.refused ≠ [] ∧ ∃ t p, s.tries ≤ t ∧ t < s'.tries ∧ p < N ∧ dev.put t p = false

theorem Lost.doomed {dev : Device} {s s' : FStream} {N : Nat} (h : Lost dev s s' N) : Doomed dev s' N := by
  obtain ⟨-, t, p, -, h2, h3, h4⟩ := h
  exact ⟨t, p, h2, by omega, h4⟩

theorem Lost.fails {dev : Device} {s s' : FStream} {N : Nat} (h : Lost dev s s' N) : Fails dev s N := by
  obtain ⟨-, t, p, h1, -, h3, h4⟩ := h
  exact ⟨t, h1, .inl ⟨p, h3, h4⟩⟩

/-- `s'` comes from `s` by storing `l` at position `o` completely. -/
def Clean (s : FStream) (o : Nat) (l : List Byte) (s' : FStream) : Prop :=
  s'.os = (s.os.seekp o).write l ∧ s'.refused = s.refused ∧ s'.log = s.log ++ storesAt o l

theorem Clean.stored {s s1 : FStream} {o : Nat} {a b : List Byte} (h : Clean s o a s1) : Clean s o (a ++ b) (s1.stored b) := by
  obtain ⟨h1, h2, h3⟩ := h
  refine ⟨by simp only [FStream.stored]; rw [h1, OStream.write_append], h2, ?_⟩
  simp only [FStream.stored]
  rw [h3, h1, OStream.write_pos, storesAt_append, List.append_assoc]
  rfl

/-- `s'` comes from `s` by storing `l` at position `o`, completely, or with a byte refused. -/
def Wrote (dev : Device) (s : FStream) (o : Nat) (l : List Byte) (s' : FStream) : Prop :=
  s'.good = true ∧ s.tries ≤ s'.tries ∧ (Clean s o l s' ∨ Lost dev s s' (o + l.length))

theorem seek_cases (dev : Device) (s : FStream) (o : Nat) (hg : s.good = true) :
    (s.seekp dev o = { s with os := s.os.seekp o, tries := s.tries + 1 }) ∨
    ((s.seekp dev o).good = false ∧ ∀ N, Fails dev s N) := by
  rw [FStream.seekp, if_pos hg]
  by_cases h : dev.seek s.tries o = true
  · left; rw [if_pos h]
  · right; rw [if_neg h]; exact ⟨rfl, fun N => ⟨s.tries, Nat.le_refl _, .inr ⟨o, by simpa using h⟩⟩⟩

/-- `BoxHeader::write`: an exception only from the seek. -/
theorem headerF (dev : Device) (h : BoxHeader) (s : FStream) (hg : s.good = true) :
    ((∃ e, (h.writeF dev s).1 = .error e) ∧ ∀ N, Fails dev s N) ∨
    ∃ s', h.writeF dev s = (.ok h.afterWrite.size, h.afterWrite, s') ∧ Wrote dev s h.offset h.headerBytes s' ∧
      h.offset ≤ s'.os.pos ∧ s'.os.pos ≤ h.offset + h.headerBytes.length ∧
      (Clean s h.offset h.headerBytes s' ∨ Doomed dev s' s'.os.pos) := by
  unfold BoxHeader.writeF
  rcases seek_cases dev s h.offset hg with h1 | ⟨h1, hF⟩
  · right
    rw [h1]
    have hg' : ({ s with os := s.os.seekp h.offset, tries := s.tries + 1 } : FStream).good = true := hg
    rw [if_pos hg']
    refine ⟨_, rfl, ?_⟩
    rcases FStream.copyOut_cases dev h.headerBytes { s with os := s.os.seekp h.offset, tries := s.tries + 1 } with h2 | ⟨k, hk, h2, h3⟩
    · rw [h2]
      refine ⟨⟨hg, ?_, .inl ⟨rfl, rfl, rfl⟩⟩, ?_, ?_, .inl ⟨rfl, rfl, rfl⟩⟩
      · simp only [FStream.stored]; omega
      · simp [FStream.stored, OStream.seekp]
      · simp [FStream.stored, OStream.seekp]
    · rw [h2]
      simp only [OStream.seekp] at h3
      have ht : s.tries + 1 + k < (FStream.stopped { s with os := s.os.seekp h.offset, tries := s.tries + 1 } h.headerBytes k).tries := by
        simp only [FStream.stopped]; omega
      have hp : (FStream.stopped { s with os := s.os.seekp h.offset, tries := s.tries + 1 } h.headerBytes k).os.pos = h.offset + k := by
        simp [FStream.stopped, OStream.seekp, Nat.min_eq_left (Nat.le_of_lt hk)]
      refine ⟨⟨hg, ?_, .inr ⟨by simp [FStream.stopped], s.tries + 1 + k, h.offset + k, by omega, ht, by omega, h3⟩⟩,
        by rw [hp]; omega, by rw [hp]; omega, .inr ⟨s.tries + 1 + k, h.offset + k, ht, by rw [hp]; omega, h3⟩⟩
      simp only [FStream.stopped]; omega
  · left
    rw [if_neg (by rw [h1]; simp)]
    exact ⟨⟨_, rfl⟩, hF⟩

/-- The content of a box: an exception as soon as a byte is refused. -/
theorem payloadF (dev : Device) (d : BoxData) (s : FStream) (h : d.Writable ∧ d.LanguageOk) (hg : s.good = true) :
    (∃ n, d.writeData.runF dev s = (.ok n, s.stored (Layout.payload d)) ∧
      (Layout.payload d ≠ [] → dev.put s.tries s.os.pos = true)) ∨
    ∃ k e s', k < (Layout.payload d).length ∧ d.writeData.runF dev s = (.error e, s') ∧
      dev.put (s.tries + k) (s.os.pos + k) = false := by
  obtain ⟨h1, h2⟩ := BoxData.write_res d h.1
  have hw := BoxData.write_eq d h.1 h.2
  have hb : d.writeData.out = bytesBits (Layout.payload d) := by
    rw [Layout.payload]
    have h2' := h2
    rw [hw] at h2'
    simp only at h2'
    rw [bytesBits_toBytes _ (by omega), hw]
  unfold W.runF
  rw [hb]
  rcases FWriter.push_bytes dev (Layout.payload d) s hg with ⟨h3, h6⟩ | ⟨k, w, hk, h3, h4, h5⟩
  · left; rw [h3, h1]
    refine ⟨_, rfl, ?_⟩
    intro hne
    obtain ⟨b, l', hl⟩ := List.exists_cons_of_ne_nil hne
    exact h6 b l' hl
  · right; rw [h3]; exact ⟨k, _, w.s, hk, rfl, h5⟩

theorem header_bytes (o n : Nat) (t : BoxType) (hn : n + Spec.headerSize n < 2 ^ 64) :
    BoxHeader.headerBytes ⟨o, n + Spec.headerSize n, Spec.headerSize n, t, false⟩
      = Spec.boxHeader (n + Spec.headerSize n) (BoxType.bytes t) := by
  by_cases hc : n + 8 < 2 ^ 32
  · have hs : Spec.headerSize n = 8 := by rw [Spec.headerSize, if_pos hc]
    rw [hs, Spec.boxHeader, if_pos hc, BoxHeader.headerBytes, if_neg (by simp),
      if_pos (by simp [LARGE_HEADER_SIZE, UINT32_MAX]; omega), uint32_to_be_beBytes]
  · have hs : Spec.headerSize n = 16 := by rw [Spec.headerSize, if_neg hc]
    rw [hs, Spec.boxHeader, if_neg (by omega), BoxHeader.headerBytes, if_neg (by simp),
      if_neg (by simp [LARGE_HEADER_SIZE]), uint64_to_be_beBytes]
    rfl

theorem header_after (o n : Nat) (t : BoxType) (hn : n + Spec.headerSize n < 2 ^ 64) :
    BoxHeader.afterWrite ⟨o, n + Spec.headerSize n, Spec.headerSize n, t, false⟩
      = ⟨o, n + Spec.headerSize n, Spec.headerSize n, t, false⟩ := by
  have h := Tree.header_write o n t ⟨[], 0⟩ hn
  rw [BoxHeader.write] at h
  exact (Prod.ext_iff.mp (Prod.ext_iff.mp h).2).1

/-- A box: an exception, or header and content were handed to the device; on a monotone device content is not accepted after a refusal. -/
theorem boxF (dev : Device) (b : Box) (o n : Nat) (s : FStream) (h : Tree.Encodable b)
    (hh : b.header = some ⟨o, n + Spec.headerSize n, Spec.headerSize n, b.type, false⟩)
    (hn : n + Spec.headerSize n < 2 ^ 64) (hg : s.good = true) :
    ((∃ e, (b.writeF dev s).1 = .error e) ∧
      Fails dev s (o + (Spec.boxHeader (n + Spec.headerSize n) (BoxType.bytes b.type) ++ Layout.payload b.data).length)) ∨
    ∃ m s', b.writeF dev s = (.ok m, b, s') ∧
      Wrote dev s o (Spec.boxHeader (n + Spec.headerSize n) (BoxType.bytes b.type) ++ Layout.payload b.data) s' ∧
      (dev.Monotone → Layout.payload b.data ≠ [] → ¬ Doomed dev s o ∧
        Clean s o (Spec.boxHeader (n + Spec.headerSize n) (BoxType.bytes b.type) ++ Layout.payload b.data) s') := by
  rcases headerF dev ⟨o, n + Spec.headerSize n, Spec.headerSize n, b.type, false⟩ s hg with ⟨⟨e, he⟩, hF⟩ | ⟨s1, h1, ⟨w1, w2, w3⟩, p1, p2, p3⟩
  · left
    refine ⟨⟨e, ?_⟩, hF _⟩
    unfold Box.writeF
    rw [hh]
    dsimp only
    rcases hr : BoxHeader.writeF dev ⟨o, n + Spec.headerSize n, Spec.headerSize n, b.type, false⟩ s with ⟨r, h', s'⟩
    rw [hr] at he
    dsimp only at he
    rw [he]
  · rw [header_bytes o n b.type hn] at w3 p2 p3
    rw [header_after o n b.type hn] at h1
    have hl := Tree.boxHeader_length n b.type
    dsimp only at p1 p2 p3 w3
    have hbw : b.writeF dev s = ((b.data.writeData.runF dev s1).1.map (n + Spec.headerSize n + ·), b, (b.data.writeData.runF dev s1).2) := by
      unfold Box.writeF
      rw [hh]
      dsimp only
      rw [h1]
      dsimp only
      rw [← hh]
    rcases payloadF dev b.data s1 h w1 with ⟨m, h2, h3⟩ | ⟨k, e, s', hk, h2, h3⟩
    · right
      rw [hbw, h2]
      refine ⟨_, _, rfl, ⟨w1, ?_, ?_⟩, ?_⟩
      · simp only [FStream.stored]; omega
      · rcases w3 with a | ⟨a1, t, p, a2, a3, a4, a5⟩
        · left; exact a.stored
        · right
          refine ⟨a1, t, p, a2, ?_, ?_, a5⟩
          · simp only [FStream.stored]; omega
          · rw [List.length_append]; omega
      · intro hm hne
        refine ⟨?_, ?_⟩
        · intro hd
          have := (hd.mono w2 p1).refuses hm (Nat.le_refl _) (Nat.le_refl _)
          rw [h3 hne] at this; cases this
        · rcases p3 with a | a
          · exact a.stored
          · have := a.refuses hm (Nat.le_refl _) (Nat.le_refl _)
            rw [h3 hne] at this; cases this
    · left
      rw [hbw, h2]
      refine ⟨⟨e, rfl⟩, s1.tries + k, by omega, .inl ⟨s1.os.pos + k, ?_, h3⟩⟩
      rw [List.length_append]; omega

namespace Tree

mutual
/-- Some box of the tree has content. -/
def HasContent : Tree → Prop
  | .node b _ ls => Layout.payload b.data ≠ [] ∨ HasContentList ls
def HasContentList : List Tree → Prop
  | [] => False
  | t :: ts => t.HasContent ∨ HasContentList ts
end

mutual
/-- The last byte of the tree belongs to the content of a box. -/
def EndsInContent : Tree → Prop
  | .node b _ [] => Layout.payload b.data ≠ []
  | .node _ _ (l :: ls) => EndsInContentList (l :: ls)
def EndsInContentList : List Tree → Prop
  | [] => False
  | [t] => t.EndsInContent
  | _ :: t :: ts => EndsInContentList (t :: ts)
end

end Tree

theorem Clean.append {s s1 s2 : FStream} {o : Nat} {a b : List Byte} (h1 : Clean s o a s1)
    (h2 : Clean s1 (o + a.length) b s2) : Clean s o (a ++ b) s2 := by
  refine ⟨?_, by rw [h2.2.1, h1.2.1], by rw [h2.2.2, h1.2.2, storesAt_append, List.append_assoc]⟩
  rw [h2.1, h1.1, OStream.write_append, Tree.seekp_of_pos (by rw [OStream.write_pos]; rfl)]

theorem Wrote.append {dev : Device} {s s1 s2 : FStream} {o : Nat} {a b : List Byte} (h1 : Wrote dev s o a s1)
    (h2 : Wrote dev s1 (o + a.length) b s2) : Wrote dev s o (a ++ b) s2 := by
  obtain ⟨a1, a2, a3⟩ := h1
  obtain ⟨b1, b2, b3⟩ := h2
  refine ⟨b1, by omega, ?_⟩
  rcases a3 with c | ⟨c1, t, p, c2, c3, c4, c5⟩
  · rcases b3 with d | ⟨d1, t, p, d2, d3, d4, d5⟩
    · exact .inl (c.append d)
    · right
      exact ⟨d1, t, p, by omega, d3, by rw [List.length_append]; omega, d5⟩
  · right
    refine ⟨?_, t, p, c2, by omega, by rw [List.length_append]; omega, c5⟩
    rcases b3 with ⟨d1, d2⟩ | ⟨d1, -⟩
    · rw [d2.1]; exact c1
    · exact d1

namespace Tree

mutual
theorem endsInContent_has : (t : Tree) → t.EndsInContent → t.HasContent
  | .node b p [], h => by rw [EndsInContent] at h; exact .inl h
  | .node b p (l :: ls), h => by rw [EndsInContent] at h; exact .inr (endsInContentList_has (l :: ls) h)
theorem endsInContentList_has : (ts : List Tree) → EndsInContentList ts → HasContentList ts
  | [], h => h.elim
  | [t], h => by rw [EndsInContentList] at h; exact .inl (endsInContent_has t h)
  | _ :: t :: ts, h => by rw [EndsInContentList] at h; exact .inr (endsInContentList_has (t :: ts) h)
end

mutual
/-- A tree on a device: an exception after a refusal, or everything was handed to the device. -/
theorem treeF (dev : Device) : (t : Tree) → (o : Nat) → (s : FStream) → t.All Encodable → t.total < 2 ^ 64 → s.good = true →
    ((∃ e, ((t.place o).writeF dev s).1 = .error e) ∧ Fails dev s (o + t.encode.length)) ∨
    ∃ s', (t.place o).writeF dev s = (.ok (), t.place o, s') ∧ Wrote dev s o t.encode s' ∧
      (dev.Monotone → t.HasContent → ¬ Doomed dev s o) ∧ (dev.Monotone → t.EndsInContent → Clean s o t.encode s')
  | .node b p ls, o, s, hall, ht, hg => by
    have hpl := payload_length b hall.1
    have h1 : (Tree.node b p ls).total = (Tree.node b p ls).inner + Spec.headerSize (Tree.node b p ls).inner := rfl
    have hin : (Tree.node b p ls).inner = b.data.getDataSize + totalList ls := by rw [inner]
    have hbl := boxHeader_length (Tree.node b p ls).inner b.type
    rw [place, writeF]
    rw [h1] at ht
    rw [encode, h1]
    have hlen : (Spec.boxHeader ((Tree.node b p ls).inner + Spec.headerSize (Tree.node b p ls).inner) (BoxType.bytes b.type) ++
      Layout.payload b.data).length = Spec.headerSize (Tree.node b p ls).inner + b.data.getDataSize := by
      rw [List.length_append, hbl, hpl]
    rcases boxF dev { b with header := some ⟨o, (Tree.node b p ls).inner + Spec.headerSize (Tree.node b p ls).inner,
      Spec.headerSize (Tree.node b p ls).inner, b.type, false⟩ } o (Tree.node b p ls).inner s hall.1 rfl ht hg with
      ⟨⟨e, he⟩, hF⟩ | ⟨m, s1, hb, hw, hc⟩
    · left
      refine ⟨⟨e, ?_⟩, hF.mono (Nat.le_refl _) (by simp only [List.length_append]; omega)⟩
      dsimp only
      rw [he]
    · dsimp only at hb hw hc ⊢
      rw [hb]
      dsimp only
      by_cases hne : ls = []
      · subst hne
        right
        rw [placeList, writeListF, encodeList, List.append_nil]
        refine ⟨s1, rfl, hw, ?_, ?_⟩
        · intro hm hh
          rcases hh with hh | hh
          · exact (hc hm hh).1
          · exact hh.elim
        · intro hm hh
          rw [EndsInContent] at hh
          exact (hc hm hh).2
      · rcases treeListF dev ls (o + Spec.headerSize (Tree.node b p ls).inner + b.data.getDataSize) s1 hne hall.2
          (by rw [hin] at ht; omega) hw.1 with ⟨⟨e, he⟩, hF⟩ | ⟨s2, hl, hw2, hc2, hc3⟩
        · left
          refine ⟨⟨e, he⟩, hF.mono hw.2.1 ?_⟩
          rw [List.length_append, hlen]; omega
        · right
          have hw2' := hw2
          rw [Nat.add_assoc, ← hlen] at hw2'
          refine ⟨s2, by rw [hl], hw.append hw2', ?_, ?_⟩
          · intro hm hh
            rcases hh with hh | hh
            · exact (hc hm hh).1
            · intro hd
              exact hc2 hm hh (hd.mono hw.2.1 (by omega))
          · intro hm hh
            have hh : EndsInContentList ls := by
              obtain ⟨l, ls', rfl⟩ := List.exists_cons_of_ne_nil hne
              rwa [EndsInContent] at hh
            have hn := hc2 hm (endsInContentList_has _ hh)
            rcases hw.2.2 with hcl | hlo
            · refine hcl.append ?_
              rw [hlen, ← Nat.add_assoc]
              exact hc3 hm hh
            · exact absurd (hlo.doomed.mono (Nat.le_refl _) (by rw [hlen]; omega)) hn
theorem treeListF (dev : Device) : (ts : List Tree) → (o : Nat) → (s : FStream) → ts ≠ [] → AllList Encodable ts →
    totalList ts < 2 ^ 64 → s.good = true →
    ((∃ e, (writeListF dev (placeList ts o) s).1 = .error e) ∧ Fails dev s (o + (encodeList ts).length)) ∨
    ∃ s', writeListF dev (placeList ts o) s = (.ok (), placeList ts o, s') ∧ Wrote dev s o (encodeList ts) s' ∧
      (dev.Monotone → HasContentList ts → ¬ Doomed dev s o) ∧
      (dev.Monotone → EndsInContentList ts → Clean s o (encodeList ts) s')
  | [], _, _, hne, _, _, _ => absurd rfl hne
  | t :: ts, o, s, _, hall, ht, hg => by
    rw [totalList_cons] at ht
    rw [placeList, writeListF, encodeList]
    have hlen := t.encode_length hall.1
    rcases treeF dev t o s hall.1 (by omega) hg with ⟨⟨e, he⟩, hF⟩ | ⟨s1, hb, hw, hc, hc'⟩
    · left
      refine ⟨⟨e, ?_⟩, hF.mono (Nat.le_refl _) (by rw [List.length_append]; omega)⟩
      dsimp only
      rw [he]
    · dsimp only
      rw [hb]
      dsimp only
      by_cases hne : ts = []
      · subst hne
        right
        rw [placeList, writeListF, encodeList, List.append_nil]
        refine ⟨s1, rfl, hw, ?_, ?_⟩
        · intro hm hh
          rcases hh with hh | hh
          · exact hc hm hh
          · exact hh.elim
        · intro hm hh
          rw [EndsInContentList] at hh
          exact hc' hm hh
      · rcases treeListF dev ts (o + t.total) s1 hne hall.2 (by omega) hw.1 with ⟨⟨e, he⟩, hF⟩ | ⟨s2, hl, hw2, hc2, hc3⟩
        · left
          refine ⟨⟨e, he⟩, hF.mono hw.2.1 ?_⟩
          rw [List.length_append, hlen]; omega
        · right
          have hw2' := hw2
          rw [← hlen] at hw2'
          refine ⟨s2, by rw [hl], hw.append hw2', ?_, ?_⟩
          · intro hm hh
            rcases hh with hh | hh
            · exact hc hm hh
            · intro hd
              exact hc2 hm hh (hd.mono hw.2.1 (by omega))
          · intro hm hh
            have hh : EndsInContentList ts := by
              obtain ⟨l, ls', rfl⟩ := List.exists_cons_of_ne_nil hne
              rwa [EndsInContentList] at hh
            have hn := hc2 hm (endsInContentList_has _ hh)
            rcases hw.2.2 with hcl | hlo
            · refine hcl.append ?_
              rw [hlen]
              exact hc3 hm hh
            · exact absurd (hlo.doomed.mono (Nat.le_refl _) (by rw [hlen]; omega)) hn
end
end Tree

/-- The result of `writeTreeF`. -/
theorem writeTreeF_cases {dev : Device} {t : Tree} (h : t.All Good) (o : Nat) (s : FStream) (ht : t.total < 2 ^ 64) (hg : s.good = true) :
    ((∃ e, writeTreeF dev (t.place o) s = .error e) ∧ Fails dev s (o + t.encode.length)) ∨
    ∃ s', writeTreeF dev (t.place o) s = .ok (t.place o, s') ∧ Wrote dev s o t.encode s' ∧
      (dev.Monotone → t.HasContent → ¬ Doomed dev s o) ∧ (dev.Monotone → t.EndsInContent → Clean s o t.encode s') := by
  unfold writeTreeF
  rcases Tree.treeF dev t o s (good_encodable h) ht hg with ⟨⟨e, he⟩, hF⟩ | ⟨s', h1, h2⟩
  · left
    rcases hr : (t.place o).writeF dev s with ⟨r, t', s'⟩
    rw [hr] at he
    dsimp only at he
    rw [he]
    exact ⟨⟨e, rfl⟩, hF⟩
  · right
    rw [h1]
    exact ⟨s', rfl, h2⟩

end Mp4
