import Verif.Spec.RoundTrip
import Verif.BitIO.ReadLemmas

/-!
# C01 - C06: properties of the bit I/O layer
-/

namespace Mp4
open R

/-! ## helper lemmas -/

theorem writeBitsSel_eq (data : List Byte) (width : Nat) (h : width ≤ 8 * data.length) :
    writeBitsSel data width = lastBits data width := by
  have hbit : ∀ (l : List Byte) (i : Nat), i < 8 * l.length →
      (bytesBits l)[i]? = some ((l.getD (i / 8) 0).getLsbD (7 - i % 8)) := by
    intro l
    induction l with
    | nil => intro i hi; simp at hi
    | cons b l ih =>
      intro i hi
      rw [bytesBits_cons]
      by_cases h8 : i < 8
      · rw [List.getElem?_append_left (by simpa using h8)]
        have h1 : i / 8 = 0 := by omega
        have h2 : i % 8 = i := by omega
        rw [h1, h2, bits, natBits_eq_range]
        simp [h8, BitVec.getLsbD]
      · rw [List.getElem?_append_right (by simpa using h8), bits_length, ih (i - 8) (by simp at hi; omega)]
        have h1 : i / 8 = (i - 8) / 8 + 1 := by omega
        have h2 : (i - 8) % 8 = i % 8 := by omega
        rw [h1, h2]; simp
  rw [writeBitsSel, if_pos (by omega), lastBits]
  apply List.ext_getElem?
  intro k
  rw [List.getElem?_drop, List.getElem?_map]
  by_cases hk : k < width
  · rw [hbit _ _ (by omega)]
    simp only [List.getElem?_range hk, Option.map_some]
    rw [Nat.mul_comm 8]
  · rw [List.getElem?_eq_none (by simp; omega), List.getElem?_eq_none (by simp; omega)]; rfl

theorem rightAligned_packBits (l : List Bool) : RightAligned (packBits l) l := by
  have h := packBits_bits l
  have hl := congrArg List.length h
  simp only [bytesBits_length, List.length_append, List.length_replicate] at hl
  refine ⟨by omega, ?_⟩
  rw [h]; congr 2; omega

theorem readMany_spec (r : Reader) (h : r.Inv) (bss : List (List Bool)) (rest : List Bool)
    (hr : r.rem = bss.flatten ++ rest) :
    ∃ vs r', r.readMany (bss.map List.length) = .ok (vs, r') ∧ r'.rem = rest ∧
      AllAligned vs bss := by
  induction bss generalizing r with
  | nil => exact ⟨[], r, rfl, by simpa using hr, trivial⟩
  | cons bs bss ih =>
    obtain ⟨hread, _⟩ := r.readBitList_spec h bs.length
    rw [hr] at hread
    obtain ⟨r1, e1, e2, e3, _⟩ := hread (by simp)
    have htake : List.take bs.length ((bs :: bss).flatten ++ rest) = bs := by simp
    have hdrop : List.drop bs.length ((bs :: bss).flatten ++ rest) = bss.flatten ++ rest := by simp
    rw [htake] at e1
    rw [hdrop] at e2
    obtain ⟨vs, r2, f1, f2, f3⟩ := ih r1 e3 e2
    exact ⟨packBits bs :: vs, r2, by simp [Reader.readMany, Reader.readBits, e1, f1], f2,
      ⟨rightAligned_packBits bs, f3⟩⟩

theorem foldl_writeBits (w : Writer) (calls : List (List Byte × Nat)) :
    calls.foldl (fun w c => w.writeBits c.1 c.2) w
      = w.push (calls.flatMap fun c => writeBitsSel c.1 c.2) := by
  induction calls generalizing w with
  | nil => rfl
  | cons c cs ih => simp only [List.foldl_cons, List.flatMap_cons, Writer.push_append, ih]; rfl

/-! ## C01 -/

/-- **C01 (writer half).**  Whatever the sequence of `writeBits(data, width)` calls on a new writer, once they add up to
whole bytes the stream has received exactly the bytes whose bits are the concatenation of the last `width` bits of
each `data`, and nothing is left pending. -/
theorem C01_writer (os : OStream) (calls : List (List Byte × Nat)) (bytes : List Byte)
    (hw : ∀ c ∈ calls, c.2 ≤ 8 * c.1.length)
    (hb : (calls.flatMap fun c => lastBits c.1 c.2) = bytesBits bytes) :
    calls.foldl (fun w c => w.writeBits c.1 c.2) (Writer.new os) = Writer.new (os.write bytes) := by
  have e : (calls.flatMap fun c => writeBitsSel c.1 c.2) = bytesBits bytes := by
    rw [← hb]
    clear hb
    induction calls with
    | nil => rfl
    | cons c cs ih =>
      rw [List.flatMap_cons, List.flatMap_cons, ih (fun x hx => hw x (by simp [hx])),
        writeBitsSel_eq _ _ (hw c (by simp))]
  rw [foldl_writeBits, e, Writer.push_bytes]; rfl

/-- **C01 (any number of bits).** After any calls, the bytes flushed so far are the complete groups of 8 of the bits written,
and the incomplete last group is still pending, in order. -/
theorem C01_writer_any (os : OStream) (calls : List (List Byte × Nat))
    (hw : ∀ c ∈ calls, c.2 ≤ 8 * c.1.length) :
    let all := calls.flatMap fun c => lastBits c.1 c.2
    let w := calls.foldl (fun w c => w.writeBits c.1 c.2) (Writer.new os)
    ∃ full, w.os = os.write full ∧ full.length = all.length / 8 ∧ bytesBits full ++ w.pending = all := by
  intro all w
  have e : (calls.flatMap fun c => writeBitsSel c.1 c.2) = all := by
    show _ = calls.flatMap fun c => lastBits c.1 c.2
    clear w all
    induction calls with
    | nil => rfl
    | cons c cs ih =>
      rw [List.flatMap_cons, List.flatMap_cons, ih (fun x hx => hw x (by simp [hx])),
        writeBitsSel_eq _ _ (hw c (by simp))]
  have hwp : w = (Writer.new os).push all := by rw [← e]; exact foldl_writeBits _ _
  obtain ⟨_, h2, h3⟩ := Writer.push_spec (Writer.new os) (Writer.new_inv os) all
  simp only [Writer.new_pending, List.nil_append] at h2 h3
  refine ⟨toBytes all, by rw [hwp, h2]; rfl, toBytes_length all, ?_⟩
  rw [hwp, h3]
  have hsplit : all = all.take (8 * (all.length / 8)) ++ all.drop (8 * (all.length / 8)) := by simp
  have hlen : (all.take (8 * (all.length / 8))).length % 8 = 0 := by simp; omega
  have h0 : toBytes all = toBytes (all.take (8 * (all.length / 8))) := by
    have h1 := toBytes_bytesBits_append (toBytes (all.take (8 * (all.length / 8)))) (all.drop (8 * (all.length / 8)))
    rw [bytesBits_toBytes _ hlen, ← hsplit] at h1
    have h2 : toBytes (all.drop (8 * (all.length / 8))) = [] := by
      apply List.eq_nil_of_length_eq_zero
      rw [toBytes_length]; simp; omega
    rw [h1, h2, List.append_nil]
  rw [h0, bytesBits_toBytes _ hlen, ← hsplit]

/-- **C01 (reader half and FIFO).**  A new reader at offset `pre.length` of a stream in which the bytes `bytes` follow,
whose bits are cut in any way into pieces `bss`, returns by `readBits` calls of those widths
exactly the pieces in order. -/
theorem C01_reader (pre bytes post : List Byte) (bss : List (List Bool)) (h : bss.flatten = bytesBits bytes) :
    ∃ vs r', (Reader.new ⟨pre ++ bytes ++ post, pre.length⟩).readMany (bss.map List.length) = .ok (vs, r') ∧
      r'.rem = bytesBits post ∧ AllAligned vs bss := by
  apply readMany_spec
  · exact Reader.new_inv _ (by simp)
  · rw [h]; simp [Reader.rem, Reader.new, natBits]

example : ∃ (calls : List (List Byte × Nat)) (bytes : List Byte),
    (∀ c ∈ calls, c.2 ≤ 8 * c.1.length) ∧ (calls.flatMap fun c => lastBits c.1 c.2) = bytesBits bytes ∧
    calls.map (·.2) = [3, 12, 1] ∧ bytes = [0xAB#8, 0xCD#8] :=
  ⟨[([0x5#8], 3), ([0x5#8, 0xE6#8], 12), ([0x1#8], 1)], [0xAB#8, 0xCD#8], by decide⟩

/-- **C01 (composition).** Write by any calls, read by any partition: same bits in the same order. -/
theorem C01_bit_fifo (calls : List (List Byte × Nat)) (bss : List (List Bool))
    (hw : ∀ c ∈ calls, c.2 ≤ 8 * c.1.length)
    (h8 : (calls.flatMap fun c => lastBits c.1 c.2).length % 8 = 0)
    (hb : bss.flatten = calls.flatMap fun c => lastBits c.1 c.2) :
    let file := (calls.foldl (fun w c => w.writeBits c.1 c.2) (Writer.new ⟨[], 0⟩)).os.data
    ∃ vs r', (Reader.new ⟨file, 0⟩).readMany (bss.map List.length) = .ok (vs, r') ∧
      r'.rem = [] ∧ AllAligned vs bss := by
  intro file
  have hbytes := bytesBits_toBytes _ h8
  have hfile : file = toBytes (calls.flatMap fun c => lastBits c.1 c.2) := by
    show (calls.foldl (fun w c => w.writeBits c.1 c.2) (Writer.new ⟨[], 0⟩)).os.data = _
    rw [C01_writer ⟨[], 0⟩ calls _ hw hbytes.symm]
    have := OStream.write_end [] (toBytes (calls.flatMap fun c => lastBits c.1 c.2))
    simp only [List.length_nil, List.nil_append] at this
    simp [Writer.new, this]
  have := C01_reader [] file [] bss (by rw [hb, hfile, hbytes])
  simpa using this

/-- Reading past the end always throws. -/
theorem C01_reader_eof (r : Reader) (h : r.Inv) (n : Nat) (hn : r.rem.length < n) :
    r.readBits n = .error .eof := by
  rw [Reader.readBits, (r.readBitList_spec h n).2 hn]

/-! ## Round trips run on the concrete objects, at every bit position -/

/-- An encoder/decoder pair that round-trips does so on the concrete `Writer`/`Reader` objects at any bit
position: after arbitrary bits `pre` and before arbitrary bits `post`. -/
theorem RoundTrip.concrete {α : Type} {m : W Nat} {p : R (Nat × α)} {a : α} (h : RoundTrip m p a)
    (pre post : List Bool) (h8 : (pre ++ m.out ++ post).length % 8 = 0) :
    let file := ((m.runC ((Writer.new ⟨[], 0⟩).push pre)).2.push post).os.data
    ∃ r r', (Reader.new ⟨file, 0⟩).readBitList pre.length = .ok (pre, r) ∧
      p.runC r = .ok ((m.out.length, a), r') ∧ r'.rem = post := by
  intro file
  have hfile : bytesBits file = pre ++ m.out ++ post := by
    have e : ((m.runC ((Writer.new ⟨[], 0⟩).push pre)).2.push post)
        = (Writer.new ⟨[], 0⟩).push (pre ++ m.out ++ post) := by
      simp [W.runC, Writer.push_append]
    show bytesBits ((m.runC ((Writer.new ⟨[], 0⟩).push pre)).2.push post).os.data = _
    rw [e]
    obtain ⟨_, h2, _⟩ := Writer.push_spec (Writer.new ⟨[], 0⟩) (Writer.new_inv _) (pre ++ m.out ++ post)
    rw [h2]
    have := OStream.write_end [] (toBytes (pre ++ m.out ++ post))
    simp only [List.length_nil, List.nil_append] at this
    simp only [Writer.new_pending, List.nil_append]
    rw [show (Writer.new ⟨[], 0⟩).os = ⟨[], 0⟩ from rfl, this, bytesBits_toBytes _ h8]
  have hrem : (Reader.new ⟨file, 0⟩).rem = pre ++ m.out ++ post := by
    simp [Reader.rem, Reader.new, natBits, hfile]
  obtain ⟨hread, _⟩ := (Reader.new ⟨file, 0⟩).readBitList_spec (Reader.new_inv _ (by simp)) pre.length
  rw [hrem] at hread
  obtain ⟨r, e1, e2, e3, e4⟩ := hread (by simp)
  have ht : List.take pre.length (pre ++ m.out ++ post) = pre := by simp
  have hd : List.drop pre.length (pre ++ m.out ++ post) = m.out ++ post := by simp
  rw [ht] at e1
  rw [hd] at e2
  have hrun := R.runC_run p r e3
  rw [e2, h.2 _ post] at hrun
  obtain ⟨r', f1, f2, _, _⟩ := hrun
  exact ⟨r, r', e1, f1, f2⟩

/-! ## C02 -/

/-- **C02.** `write_uint(v, size)` then `read_uint(size)`: the value mod 2^size; most significant bit first. -/
theorem C02_uint_round_trip (w size : Nat) (v : BitVec w) (h0 : 0 < size) (h64 : size ≤ 64)
    (hub : size - 8 < promotedWidth w) :
    RoundTrip (write_uint v size) (read_uint w size) (BitVec.ofNat w (v.toNat % 2 ^ size)) ∧
    (write_uint v size).out.length = size ∧
    ofBits (write_uint v size).out = v.toNat % 2 ^ size := by
  rw [write_uint_eq v size hub]
  refine ⟨⟨by simp, ?_⟩, by simp, ofBits_natBits _ _⟩
  intro d rest
  have := run_read_uint w size v.toNat .ret d rest h0 h64
  rw [bind_ret] at this
  simpa using this

/-- **C02, values that fit.** -/
theorem C02_uint_round_trip_fits (w size : Nat) (v : BitVec w) (h0 : 0 < size) (h64 : size ≤ 64)
    (hub : size - 8 < promotedWidth w) (hfit : v.toNat < 2 ^ size) :
    RoundTrip (write_uint v size) (read_uint w size) v := by
  have := (C02_uint_round_trip w size v h0 h64 hub).1
  rwa [Nat.mod_eq_of_lt hfit, BitVec.ofNat_toNat, BitVec.setWidth_eq] at this

/-- C02 at full width never fails. -/
theorem C02_uint_full (w : Nat) (v : BitVec w) (h0 : 0 < w) (h64 : w ≤ 64) :
    RoundTrip (write_uint v) (read_uint w) v :=
  C02_uint_round_trip_fits w w v h0 h64 (promoted_pos w) v.isLt

/-- C02, excluded point: a field so wide that the code would shift by the width of the (promoted) type or more is undefined
behaviour, before any bit is written. -/
theorem C02_uint_ub (w size : Nat) (v : BitVec w) (h : promotedWidth w + 8 ≤ size) :
    (write_uint v size).res = .error (.ub "shift exceeds type width") ∧ (write_uint v size).out = [] := by
  have h32 : 32 ≤ promotedWidth w := by unfold promotedWidth; omega
  obtain ⟨k, hk⟩ : ∃ k, (size + 7) / 8 = k + 1 := ⟨(size + 7) / 8 - 1, by omega⟩
  rw [write_uint, hk, writeUintGo, writeUintGroup, if_pos (by omega), if_pos (by omega)]
  exact ⟨rfl, rfl⟩

/-- `read_uint` with size 0 throws `invalid_argument`, and a stream that is too short makes it throw. -/
theorem C02_uint_errors (w n : Nat) (d : List Byte) (s : List Bool) :
    (∃ e, (read_uint w 0).run d s = .error (.exc e)) ∧
    (s.length < n → (read_uint w n).run d s = .error .eof) := by
  refine ⟨⟨_, rfl⟩, fun h => ?_⟩
  have := run_read_uint_eof w n .ret d s h
  rwa [bind_ret] at this

example : (0x2A5#32).toNat < 2 ^ 10 ∧ (10 - 8 < promotedWidth 32) := by decide

/-! ## C03 -/

/-- **C03.** Two's complement values that fit `size` bits come back. -/
theorem C03_int_round_trip (w size : Nat) (v : BitVec w) (h0 : 0 < size) (hs : size ≤ w) (hw : w ≤ 64)
    (hlo : -(2 ^ (size - 1) : Int) ≤ v.toInt) (hhi : v.toInt < 2 ^ (size - 1)) :
    RoundTrip (write_int v size) (read_int w size) v ∧ (write_int v size).out.length = size := by
  rw [write_int_eq v size h0 hs]
  have hl : (natBits (size - 1) v.toNat).length + 1 = size := by simp; omega
  refine ⟨⟨by simp; omega, ?_⟩, by simpa using hl⟩
  intro d rest
  have := run_read_int v size .ret d rest h0 hs hw hlo hhi
  rw [bind_ret] at this
  simp only at this ⊢
  rw [this, List.length_cons, hl]; rfl

/-- C03 at full width: every value. -/
theorem C03_int_full (w : Nat) (v : BitVec w) (h0 : 0 < w) (hw : w ≤ 64) :
    RoundTrip (write_int v) (read_int w) v :=
  (C03_int_round_trip w w v h0 (Nat.le_refl w) hw (toInt_range v h0).1 (toInt_range v h0).2).1

/-- C03, exact behaviour outside the range: the sign is kept and the low `size - 1` bits; everything else is dropped
without an error. -/
theorem C03_int_out_of_range (w size : Nat) (v : BitVec w) (h0 : 0 < size) (hs : size ≤ w) :
    write_int v size = ⟨v.msb :: natBits (size - 1) v.toNat, .ok size⟩ :=
  write_int_eq v size h0 hs

/-- C03, the excluded point is real: 200 in 8 bits is written without error and reads back as 72. -/
theorem C03_int_truncation_witness :
    (write_int (200#16) 8).res = .ok 8 ∧
    ((read_int 16 8).run [] (write_int (200#16) 8).out) = .ok ((8, 72#16), []) := by decide +kernel

example : -(2 ^ (6 - 1) : Int) ≤ (-17#16 : BitVec 16).toInt ∧ (-17#16 : BitVec 16).toInt < 2 ^ (6 - 1) := by decide

/-! ## C04 -/

theorem uvarint_run (w : Nat) (u : BitVec w) (h8 : 8 ≤ w) (hw : w ≤ 64) (d : List Byte) (rest : List Bool) :
    (read_uvarint w).run d ((write_uvarint u).out ++ rest)
      = .ok ((8 * (w / 8), BitVec.ofNat w (u.toNat % 2 ^ (7 * (w / 8)))), rest) := by
  have hout : (write_uvarint u).out = bytesBits (uvarintBytes u.toNat (w / 8)) := by
    rw [write_uvarint, writeUvarintGo_eq, uvarint_size]
    have : (u.setWidth 64).toNat = u.toNat := by
      rw [BitVec.toNat_setWidth]
      exact Nat.mod_eq_of_lt (Nat.lt_of_lt_of_le u.isLt (Nat.pow_le_pow_right (by decide) hw))
    simp [this]
  rw [hout, read_uvarint]
  simp only [bind_eq, run_offsetToEnd]
  have hk : 0 < w / 8 := by omega
  rw [run_readUvarintGo w u.toNat (w / 8) _ hk (by simp; omega) 0 0 d rest]
  · simp
  · have : u.toNat % 2 ^ (7 * (w / 8)) < 2 ^ (7 * (w / 8)) := Nat.mod_lt _ (Nat.two_pow_pos _)
    have h2 : 2 ^ (7 * (w / 8)) ≤ 2 ^ w := Nat.pow_le_pow_right (by decide) (by omega)
    simp only [BitVec.toNat_zero, BitVec.ofNat_eq_ofNat, Nat.zero_mul, Nat.zero_add]
    omega

/-- **C04.** A `w/8`-byte unsigned integer is written as exactly `uvarint_size` bytes and read back whenever it is below
`2^(7*w/8)`. -/
theorem C04_uvarint_round_trip (w : Nat) (u : BitVec w) (h8 : 8 ≤ w) (hw : w ≤ 64)
    (hfit : u.toNat < 2 ^ (7 * (w / 8))) :
    RoundTrip (write_uvarint u) (read_uvarint w) u ∧ (write_uvarint u).out.length = 8 * uvarint_size w := by
  have hlen : (write_uvarint u).out.length = 8 * uvarint_size w := by
    rw [write_uvarint, writeUvarintGo_eq]; simp
  have hres : (write_uvarint u).res = .ok (uvarint_size w * 8) := by
    rw [write_uvarint, writeUvarintGo_eq]; rfl
  refine ⟨⟨by rw [hres, hlen, Nat.mul_comm], ?_⟩, hlen⟩
  intro d rest
  rw [uvarint_run w u h8 hw d rest, Nat.mod_eq_of_lt hfit, hlen]
  simp [uvarint_size]

/-- **C04, exact behaviour for every value**: no error, and the value read back is the value mod `2^(7*w/8)`. -/
theorem C04_uvarint_truncation (w : Nat) (u : BitVec w) (h8 : 8 ≤ w) (hw : w ≤ 64) :
    RoundTrip (write_uvarint u) (read_uvarint w) (BitVec.ofNat w (u.toNat % 2 ^ (7 * (w / 8)))) := by
  have hlen : (write_uvarint u).out.length = 8 * uvarint_size w := by
    rw [write_uvarint, writeUvarintGo_eq]; simp
  have hres : (write_uvarint u).res = .ok (uvarint_size w * 8) := by
    rw [write_uvarint, writeUvarintGo_eq]; rfl
  refine ⟨by rw [hres, hlen, Nat.mul_comm], fun d rest => ?_⟩
  rw [uvarint_run w u h8 hw d rest, hlen]; rfl

/-- C04: 2^28 in a uint32 is silently read back as 0. -/
theorem C04_uvarint_truncation_witness :
    RoundTrip (write_uvarint (0x10000000#32)) (read_uvarint 32) 0#32 :=
  C04_uvarint_truncation 32 _ (by decide) (by decide)

example : (0x0ABCDEF#32).toNat < 2 ^ (7 * (32 / 8)) := by decide

/-! ## C05 -/

/-- **C05.** NUL-free strings come back; exactly length + 1 bytes are used, whatever the (sufficient) budget. -/
theorem C05_string_round_trip (s : List Byte) (hs : ∀ c ∈ s, c ≠ 0) (maxRbits : Nat)
    (hm : 8 * (s.length + 1) ≤ maxRbits) :
    RoundTrip (write_string s) (read_string maxRbits) s ∧
      (write_string s).out = bytesBits (s ++ [0]) := by
  rw [write_string_eq]
  refine ⟨⟨by simp [Nat.mul_add], fun d rest => ?_⟩, rfl⟩
  have := run_read_string s hs maxRbits hm .ret d rest
  rw [bind_ret] at this
  simp only at this ⊢
  rw [this]; simp [Nat.mul_add]

/-- **C05, short budget.** If the budget ends before a NUL, the string is the bytes of the budget and exactly the budget is consumed. -/
theorem C05_string_budget (s : List Byte) (hs : ∀ c ∈ s, c ≠ 0) (d : List Byte) (rest : List Bool) :
    (read_string (8 * s.length)).run d (bytesBits s ++ rest) = .ok ((8 * s.length, s), rest) := by
  have h : (8 * s.length + 7) / 8 = s.length := by omega
  rw [read_string, h]; exact run_readStringGo_short s hs d rest

/-- C05: a NUL inside the string cuts it there (the excluded inputs). -/
theorem C05_string_nul (s t : List Byte) (hs : ∀ c ∈ s, c ≠ 0) (maxRbits : Nat)
    (hm : 8 * (s.length + 1) ≤ maxRbits) (d : List Byte) (rest : List Bool) :
    (read_string maxRbits).run d ((write_string (s ++ 0 :: t)).out ++ rest)
      = .ok ((8 * (s.length + 1), s), bytesBits (t ++ [0]) ++ rest) := by
  have := run_read_string s hs maxRbits hm .ret d (bytesBits (t ++ [0]) ++ rest)
  rw [bind_ret] at this
  rw [write_string_eq]
  simp only [run_ret] at this
  rw [← this]; simp

example : (∀ c ∈ [0x61#8, 0x62#8], c ≠ 0) ∧ 8 * ([0x61#8, 0x62#8].length + 1) ≤ 80 := by decide

/-! ## C06 -/

/-- **C06 (Pascal string).** A Pascal string of 1 to 255 bytes that fills the budget is recognised. -/
theorem C06_pascal_round_trip (s : List Byte) (h1 : 1 ≤ s.length) (h255 : s.length ≤ 255) :
    RoundTrip (write_pascal_string s) (read_pascal_string (8 * (s.length + 1))) s := by
  have hw : write_pascal_string s = ⟨bytesBits (BitVec.ofNat 8 s.length :: s), .ok (8 * (s.length + 1))⟩ := by
    rw [write_pascal_string, if_neg (by omega)]; simp; omega
  rw [hw]
  refine ⟨by simp; omega, fun d rest => ?_⟩
  rw [read_pascal_string, if_neg (by omega)]
  simp only [bind_eq, pure_eq, run_tellg, bytesBits_cons, List.append_assoc]
  rw [run_readBits_byte]
  have hv : (BitVec.ofNat 8 s.length).toNat = s.length := by
    rw [BitVec.toNat_ofNat]; exact Nat.mod_eq_of_lt (by omega)
  simp only [List.getD_cons_zero, hv]
  rw [if_neg (by omega), run_bind_ok (run_readBytes8 s d rest)]
  simp; omega

/-- **C06 (too long).** Longer strings are refused before anything is written. -/
theorem C06_pascal_too_long (s : List Byte) (h : 255 < s.length) :
    (∃ e, (write_pascal_string s).res = .error (.exc e)) ∧ (write_pascal_string s).out = [] := by
  rw [write_pascal_string, if_pos (by omega)]
  exact ⟨⟨_, rfl⟩, rfl⟩

/-- **C06 (fallback).** At a byte boundary, if the first byte is not the length of the rest of the budget, the result is exactly that of
`read_string` from the same position. -/
theorem C06_pascal_fallback (d : List Byte) (pos budget : Nat) (hp : pos ≤ d.length) (b : Byte)
    (hb : d[pos]? = some b) (hne : b.toNat * 8 ≠ 8 * budget - 8) :
    (read_pascal_string (8 * budget)).run d (bytesBits (d.drop pos))
      = (read_string (8 * budget)).run d (bytesBits (d.drop pos)) := by
  rw [read_pascal_string]
  by_cases h16 : 8 * budget < 2 * 8
  · rw [if_pos h16]
  · rw [if_neg h16]
    simp only [bind_eq, run_tellg]
    obtain ⟨hlt, hget⟩ := List.getElem?_eq_some_iff.mp hb
    have hcons : d.drop pos = b :: d.drop (pos + 1) := by rw [List.drop_eq_getElem_cons hlt, hget]
    rw [hcons, bytesBits_cons, run_readBits_byte]
    simp only [List.getD_cons_zero]
    rw [if_pos hne]
    have hpos : d.length - (bits b ++ bytesBits (List.drop (pos + 1) d)).length / 8 = pos := by
      simp; omega
    rw [hpos]
    have : (bytesBits (d.drop (pos + 1))).length % 8 = 0 := by simp
    simp only [R.seekg, R.bind, R.run, hp, ↓reduceIte, this, List.take_zero, List.nil_append]
    rw [hcons, bytesBits_cons]

/-- **C06 (ambiguity).** A C string whose first character code equals its own length is misread: e.g. the name
"\x02X" in a budget of 3 bytes comes back as "X\0". -/
theorem C06_pascal_ambiguity :
    (read_pascal_string 24).run [2, 0x58, 0] ((write_string [2, 0x58]).out) = .ok ((24, [0x58, 0]), []) := by
  decide +kernel

example : 1 ≤ [0x61#8, 0x62#8].length ∧ [0x61#8, 0x62#8].length ≤ 255 := by decide
example : ([0x61#8, 0x62#8, 0#8])[0]? = some 0x61#8 ∧ (0x61#8).toNat * 8 ≠ 8 * 3 - 8 := by decide

end Mp4
