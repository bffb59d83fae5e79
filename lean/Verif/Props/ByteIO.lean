import Verif.Spec.BitIO
import Verif.Props.BitIO

/-!
# C56: byte-wise access and seeking on bit streams
-/

namespace Mp4

theorem Writer.push_lastBits (w : Writer) (data : List Byte) (width : Nat) (h : width ≤ 8 * data.length) :
    w.writeBits data width = w.push (lastBits data width) := by
  rw [← writeBitsSel_eq _ _ h]; rfl

/-- `w` is what a new writer on `os` becomes once the bits `acc` have been accepted. -/
def Writer.Holds (w : Writer) (os : OStream) (acc : List Bool) : Prop :=
  w.Inv ∧ w.os = os.write (toBytes acc) ∧ w.pending = acc.drop (8 * (acc.length / 8))

theorem toBytes_append_pending (acc bs : List Bool) :
    toBytes acc ++ toBytes (acc.drop (8 * (acc.length / 8)) ++ bs) = toBytes (acc ++ bs) := by
  have hsplit : acc = acc.take (8 * (acc.length / 8)) ++ acc.drop (8 * (acc.length / 8)) := by simp
  have hlen : (acc.take (8 * (acc.length / 8))).length % 8 = 0 := by simp; omega
  have h1 : ∀ t, toBytes (acc.take (8 * (acc.length / 8)) ++ t)
      = toBytes (acc.take (8 * (acc.length / 8))) ++ toBytes t := by
    intro t
    have := toBytes_bytesBits_append (toBytes (acc.take (8 * (acc.length / 8)))) t
    rwa [bytesBits_toBytes _ hlen] at this
  have h2 : toBytes (acc.drop (8 * (acc.length / 8))) = [] := by
    apply List.eq_nil_of_length_eq_zero
    rw [toBytes_length]; simp; omega
  have h3 : toBytes acc = toBytes (acc.take (8 * (acc.length / 8))) := by
    have := h1 (acc.drop (8 * (acc.length / 8)))
    rwa [← hsplit, h2, List.append_nil] at this
  rw [h3, ← h1, ← List.append_assoc, ← hsplit]

theorem Writer.Holds.push {w : Writer} {os : OStream} {acc : List Bool} (h : w.Holds os acc) (bs : List Bool) :
    (w.push bs).Holds os (acc ++ bs) := by
  obtain ⟨h1, h2, h3⟩ := h
  obtain ⟨i1, i2, i3⟩ := w.push_spec h1 bs
  refine ⟨i1, ?_, ?_⟩
  · rw [i2, h2, h3, ← OStream.write_append, toBytes_append_pending]
  · rw [i3, h3]
    have e : acc.drop (8 * (acc.length / 8)) ++ bs = (acc ++ bs).drop (8 * (acc.length / 8)) := by
      rw [List.drop_append_of_le_length (by omega)]
    rw [e, List.drop_drop]
    congr 1
    simp only [List.length_drop, List.length_append]; omega

theorem Writer.Holds.width {w : Writer} {os : OStream} {acc : List Bool} (h : w.Holds os acc) :
    w.width = acc.length % 8 := by
  rw [← w.pending_length h.1, h.2.2]; simp; omega

theorem Writer.Holds.eq_new {w : Writer} {os : OStream} {acc : List Bool} (h : w.Holds os acc)
    (h8 : acc.length % 8 = 0) : w = Writer.new (os.write (toBytes acc)) := by
  have hw := h.width
  rw [h8] at hw
  obtain ⟨⟨_, hz⟩, ho, _⟩ := h
  rw [hw] at hz
  have h0 : w.octet = 0 := by
    apply BitVec.eq_of_toNat_eq
    have := w.octet.isLt
    simp at hz ⊢; omega
  cases w; simp_all [new]

theorem Writer.session_spec (os : OStream) (calls : List WCall) (hv : ∀ c ∈ calls, c.Valid) (acc : List Bool)
    (w : Writer) (h : w.Holds os acc) :
    (w.session calls).1 = (Spec.accept acc calls).1 ∧ (w.session calls).2.Holds os (Spec.accept acc calls).2 := by
  induction calls generalizing acc w with
  | nil => exact ⟨rfl, h⟩
  | cons c cs ih =>
    have hcs : ∀ c ∈ cs, c.Valid := fun x hx => hv x (by simp [hx])
    cases c with
    | bits data width =>
      have hw : width ≤ 8 * data.length := hv (.bits data width) (by simp)
      obtain ⟨i1, i2⟩ := ih hcs (acc ++ lastBits data width) (w.push (lastBits data width)) (h.push _)
      simp only [session, WCall.perform, Writer.push_lastBits w data width hw, Spec.accept]
      exact ⟨by rw [i1], i2⟩
    | bytes p =>
      by_cases h8 : acc.length % 8 = 0
      · have e := h.eq_new h8
        have hw : w.write p = .ok (w.push (bytesBits p)) := by
          rw [e, Writer.push_bytes]
          simp [write, new]
        obtain ⟨i1, i2⟩ := ih hcs (acc ++ bytesBits p) (w.push (bytesBits p)) (h.push _)
        simp only [session, WCall.perform, hw, Spec.accept, h8, ↓reduceIte]
        exact ⟨by rw [i1], i2⟩
      · have hw : w.write p = .error (.exc "bitio::Writer::write(): width is not 0") := by
          rw [write, if_pos (by rw [h.width]; exact h8)]
        obtain ⟨i1, i2⟩ := ih hcs acc w h
        simp only [session, WCall.perform, hw, Spec.accept, h8, ↓reduceIte]
        exact ⟨by rw [i1], i2⟩

/-- **C56 (writer).** For every mix of `writeBits` and `write` calls on a new writer, made by a caller that carries on after an exception:
`write` succeeds exactly when the number of bits accepted so far is a multiple of 8, a refused call changes nothing, and
at the end the stream has received the complete bytes of all accepted bits, in order, the rest being pending. -/
theorem C56_writer_mixed (os : OStream) (calls : List WCall) (hv : ∀ c ∈ calls, c.Valid) :
    let run := (Writer.new os).session calls
    let spec := Spec.accept [] calls
    run.1 = spec.1 ∧ run.2.os = os.write (toBytes spec.2) ∧
      run.2.pending = spec.2.drop (8 * (spec.2.length / 8)) := by
  have h0 : (Writer.new os).Holds os [] :=
    ⟨Writer.new_inv os, by simp [Writer.new, toBytes, OStream.write], by simp⟩
  obtain ⟨h1, h2, h3, h4⟩ := Writer.session_spec os calls hv [] (Writer.new os) h0
  exact ⟨h1, h3, h4⟩

/-- A mix with an aligned and a refused byte-wise call. -/
example : Spec.accept [] [.bytes [0xAB], .bits [0x5] 3, .bytes [0xFF], .bits [0x1F] 5, .bytes [0xCD]]
      = ([true, true, false, true, true], bytesBits [0xAB, 0xBF, 0xCD]) ∧
    (∀ c ∈ [WCall.bytes [0xAB], .bits [0x5] 3, .bytes [0xFF], .bits [0x1F] 5, .bytes [0xCD]], c.Valid) := by
  refine ⟨by decide, ?_⟩
  simp [WCall.Valid]

/-! ## Reader -/

/-- The reader stands at bit `p` of the file `data`. -/
def Reader.At (r : Reader) (data : List Byte) (p : Nat) : Prop :=
  r.Inv ∧ r.is.data = data ∧ r.rem = (bytesBits data).drop p ∧ p ≤ 8 * data.length

theorem Reader.At.pos {r : Reader} {data : List Byte} {p : Nat} (h : r.At data p) :
    p + r.width = 8 * r.is.pos := by
  obtain ⟨⟨_, h2⟩, h3, h4, h5⟩ := h
  have := congrArg List.length h4
  simp [rem] at this
  rw [h3] at this h2
  omega

theorem Reader.at_aligned (data : List Byte) (n : Nat) (o : Byte) (h : n ≤ data.length) :
    Reader.At ⟨⟨data, n⟩, o, 0⟩ data (8 * n) := by
  refine ⟨⟨by simp, h⟩, rfl, ?_, by omega⟩
  rw [rem]
  simp only [natBits, List.nil_append]
  have e : bytesBits data = bytesBits (data.take n) ++ bytesBits (data.drop n) := by
    rw [← bytesBits_append, List.take_append_drop]
  rw [e, List.drop_left' (by simp; omega)]

theorem Reader.session_spec (data : List Byte) (calls : List RCall) (p : Nat) (r : Reader) (h : r.At data p) :
    r.session calls = Spec.answers data p calls := by
  induction calls generalizing p r with
  | nil => rfl
  | cons c cs ih =>
    have hpos := h.pos
    obtain ⟨hI, hd, hrem, hp⟩ := h
    cases c with
    | bits n =>
      have hl : r.rem.length = 8 * data.length - p := by rw [hrem]; simp
      by_cases hn : p + n ≤ 8 * data.length
      · obtain ⟨r', e1, e2, e3, e4⟩ := (r.readBitList_spec hI n).1 (by omega)
        have hA : r'.At data (p + n) := ⟨e3, by rw [e4, hd], by rw [e2, hrem, List.drop_drop], hn⟩
        simp only [session, readBits, e1, Spec.answers, hn, ↓reduceIte, ih _ _ hA, Except.map, hrem]
        rfl
      · have e := (r.readBitList_spec hI n).2 (by omega)
        simp only [session, readBits, e, Spec.answers, hn, ↓reduceIte, Except.map]
    | bytes n =>
      have hw8 := hI.1
      by_cases h8 : p % 8 = 0
      · have hw : r.width = 0 := by omega
        have hq : p / 8 = r.is.pos := by omega
        by_cases hn : p / 8 + n ≤ data.length
        · have hn' : r.is.pos + n ≤ r.is.data.length := by rw [hd]; omega
          simp only [session, read, hw, ne_eq, not_true_eq_false, ↓reduceIte, hn', Spec.answers, h8, hn, Except.map]
          rw [hq, hd]
          congr 1
          rw [show p + 8 * n = 8 * (r.is.pos + n) by omega]
          exact ih _ _ (Reader.at_aligned data (r.is.pos + n) r.octet (by omega))
        · have hn' : ¬ r.is.pos + n ≤ r.is.data.length := by rw [hd]; omega
          simp only [session, read, hw, ne_eq, not_true_eq_false, ↓reduceIte, hn', Spec.answers, h8, hn, Except.map]
      · have hw : r.width ≠ 0 := by omega
        simp only [session, read, hw, ne_eq, not_false_eq_true, ↓reduceIte, Spec.answers, h8, Except.map,
          ih p r ⟨hI, hd, hrem, hp⟩]
    | seek o way =>
      have hw8 := hI.1
      by_cases hc : way = .cur ∧ r.width ≠ 0
      · have hc' : way = .cur ∧ p % 8 ≠ 0 := ⟨hc.1, by omega⟩
        simp only [session, seek, if_pos hc, Spec.answers, if_pos hc', Except.map, ih p r ⟨hI, hd, hrem, hp⟩]
      · have hc' : ¬ (way = .cur ∧ p % 8 ≠ 0) := fun h => hc ⟨h.1, by omega⟩
        obtain ⟨⟨d, pos⟩, oct, wd⟩ := r
        simp only at hd hpos hw8 hc
        subst hd
        have key : ∀ target : Int,
            (match ((if 0 ≤ target ∧ target ≤ d.length then
                .ok (target.toNat, ⟨⟨d, target.toNat⟩, oct, 0⟩)
              else .error .eof : Except Err (Nat × Reader)).map fun x => (RAnswer.pos x.1, x.2)) with
            | .ok (a, r') => a :: r'.session cs
            | .error .eof => [.failed]
            | .error _ => .refused :: Reader.session ⟨⟨d, pos⟩, oct, wd⟩ cs)
            = if 0 ≤ target ∧ target ≤ d.length then .pos target.toNat :: Spec.answers d (8 * target.toNat) cs
              else [.failed] := by
          intro target
          by_cases ht : 0 ≤ target ∧ target ≤ d.length
          · simp only [if_pos ht, Except.map]
            congr 1
            exact ih _ _ (Reader.at_aligned d target.toNat oct (by omega))
          · simp only [if_neg ht, Except.map]
        simp only [session, seek, if_neg hc, Spec.answers, if_neg hc']
        cases way with
        | beg => exact key _
        | cur =>
          have : p / 8 = pos := by
            have : ¬ wd ≠ 0 := fun h => hc ⟨rfl, h⟩
            omega
          rw [this]; exact key _
        | end_ => exact key _

/-- **C56 (reader).** For every mix of `readBits`, `read` and `seek` calls on a reader at byte `start` of a file, made by a caller that
carries on after a refusal and stops when the stream fails, every answer is that of the specification: `read` and relative seeks are
refused exactly in the middle of a byte and then change nothing, each call delivers exactly the bits or bytes at the
current position, and the stream fails exactly when fewer are left (or the seek target is outside the file). -/
theorem C56_reader_mixed (data : List Byte) (start : Nat) (hs : start ≤ data.length) (calls : List RCall) :
    (Reader.new ⟨data, start⟩).session calls = Spec.answers data (8 * start) calls :=
  Reader.session_spec data calls _ _ (Reader.at_aligned data start 0 hs)

example : Spec.answers [0xAB, 0xCD, 0xEF] 0
      [.bits 4, .bytes 1, .seek 0 .cur, .bits 4, .bytes 1, .bits 3, .seek (-1) .end_, .bytes 1, .seek 1 .beg, .bits 12, .bits 5]
    = [.vec [0xA], .refused, .refused, .vec [0xB], .vec [0xCD], .vec [0x7], .pos 2, .vec [0xEF], .pos 1, .vec [0xC, 0xDE],
       .failed] := by decide +kernel

end Mp4
