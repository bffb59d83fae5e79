import Verif.Lemmas.NeededAlst
import Verif.Lemmas.Rewrite

/-!
# C63: which payloads are accepted

`d` is the payload of a box: arbitrary bytes.  `Spec.needed` (Spec/Needed.lean) computes from the payload's own version, flags,
counts and strings how many bytes the syntax calls for.
-/

namespace Mp4
open R

private theorem takes_all (env : Env) (t : BoxType) (wave : Bool) (k : Kind) (d : List Byte) (N : Nat)
    (h : Spec.needed t wave d k = some N) : TakesAt (bytesBits d) 0 (BoxData.readData env t wave k) (8 * N) := by
  have hl : (bytesBits d).length = 8 * d.length := bytesBits_length d
  have f1 : ∀ o n, Spec.numAt d o n = fieldAt (bytesBits d) (8 * o) (8 * n) := fun o n => (fieldAt_bytes d o n).symm
  have f2 : Spec.version d = fieldAt (bytesBits d) 0 8 := f1 0 1
  have f3 : ∀ m, Spec.flag d m = flagAt (bytesBits d) m := fun m => (flag_bytes d m).symm
  cases k
  case hdlr => cases h
  case ftyp => cases h
  case sgpd => exact TakesAt.map _ (Sgpd.takes env.sgpd d N h)
  case empty => cases h; exact TakesAt.ret rfl (Nat.zero_le _)
  all_goals
    injection h with h
    subst h
    refine TakesAt.map _ ?_
  case esds => exact Esds.takes _ d
  case btrt => exact Btrt.takes
  case pasp => exact Pasp.takes
  case fiel => exact Fiel.takes
  case smhd => exact Smhd.takes
  case vmhd => exact Vmhd.takes
  case mfhd => exact Mfhd.takes
  case mfro => exact Mfro.takes
  case dref => exact Dref.takes
  case stsd => exact Stsd.takes
  case trex => exact Trex.takes
  case metaBox => exact Meta.takes
  case visual => exact VisualSampleEntry.takes t
  case iods => exact Iods.takes d
  case url => exact Url.takes _ d
  case urn => exact Urn.takes _ d
  case emsg => exact Emsg.takes d
  case opaq => exact Opaque.takes hl
  case sdtp => exact Sdtp.takes hl
  case av1C => exact Av1C.takes hl
  case data => exact Data.takes hl
  case avcC => exact AvcC.takes _ d
  case mvhd => rw [f2]; exact Mvhd.takes
  case tkhd => rw [f2]; exact Tkhd.takes
  case mdhd => rw [f2]; exact Mdhd.takes
  case mehd => rw [f2]; exact Mehd.takes
  case tfdt => rw [f2]; exact Tfdt.takes
  case elst => rw [f2, f1]; exact Elst.takes
  case sidx => rw [f2, f1, f1]; exact Sidx.takes
  case stts => rw [f1]; exact Stts.takes
  case ctts => rw [f1]; exact Ctts.takes
  case stsc => rw [f1]; exact Stsc.takes
  case stco => rw [f1]; exact Stco.takes
  case stss => rw [f1]; exact Stss.takes
  case co64 => rw [f1]; exact Co64.takes
  case stsz => rw [f1, f1]; exact Stsz.takes
  case sbgp => rw [f2, f1, f1]; exact Sbgp.takes _
  case tfhd => simp only [f3]; exact Tfhd.takes _
  case trun => simp only [f3, f1]; exact Trun.takes _
  case vpcC => rw [f2, f1]; exact VpcC.takes
  case dOps => rw [f1, f1]; exact DOps.takes
  case colr => rw [f1]; exact Colr.takes hl _
  case audio => rw [f1]; exact AudioSampleEntry.takes hl _
  case pssh =>
    refine (Pssh.takes env.pssh).congr ?_
    rw [f2, f1, f1, show 8 * (24 + 16 * fieldAt (bytesBits d) (8 * 20) (8 * 4)) = 192 + 128 * fieldAt (bytesBits d) 160 32 by
      show 8 * (24 + 16 * fieldAt (bytesBits d) 160 32) = _; omega]
  case tfra =>
    by_cases h16 : 16 ≤ d.length
    · refine Tfra.takes.congr ?_
      have h8 := fieldAt_add (bytesBits d) 88 2 6 (by omega)
      have h6 := fieldAt_add (bytesBits d) 90 2 4 (by omega)
      have h4 := fieldAt_add (bytesBits d) 92 2 2 (by omega)
      simp only [Nat.reduceAdd, Nat.reducePow] at h8 h6 h4
      have l0 := fieldAt_lt (bytesBits d) 90 2
      have l1 := fieldAt_lt (bytesBits d) 92 2
      have l2 := fieldAt_lt (bytesBits d) 94 2
      have e := f1 11 1
      simp only [Nat.reduceMul] at e
      rw [f2, f1 12 4, show Spec.numAt d 11 1 / 16 % 4 = fieldAt (bytesBits d) 90 2 by omega,
        show Spec.numAt d 11 1 / 4 % 4 = fieldAt (bytesBits d) 92 2 by omega,
        show Spec.numAt d 11 1 % 4 = fieldAt (bytesBits d) 94 2 by omega]
    · intro e
      exact ⟨fun h => by omega, fun _ => (Tfra.takes e).2 (by omega)⟩

/-- **C63.** Every payload that is long enough is accepted, and the rest of it stays unread; every other payload is refused with
the end-of-stream exception. -/
theorem C63_needed (env : Env) (t : BoxType) (wave : Bool) (k : Kind) (d : List Byte) (N : Nat)
    (h : Spec.needed t wave d k = some N) :
    (N ≤ d.length → ∃ n b, b.kind = k ∧
      (BoxData.readData env t wave k).run d (bytesBits d) = .ok ((n, b), bytesBits (d.drop N))) ∧
    (d.length < N → (BoxData.readData env t wave k).run d (bytesBits d) = .error .eof) := by
  have key := takes_all env t wave k d N h d
  rw [List.drop_zero, bytesBits_length] at key
  refine ⟨fun hN => ?_, fun hN => key.2 (by omega)⟩
  obtain ⟨n, b, hr⟩ := key.1 (by omega)
  rw [← bytesBits_drop] at hr
  exact ⟨n, b, BoxData.readData_kind hr, hr⟩

/-- **C63.** `ftyp` and `styp`: eight bytes and then whole brands of four bytes. -/
theorem C63_ftyp (env : Env) (t : BoxType) (wave : Bool) (d : List Byte) :
    (d.length < 8 → (BoxData.readData env t wave .ftyp).run d (bytesBits d) = .error .eof) ∧
    (8 ≤ d.length → d.length % 4 ≠ 0 → (BoxData.readData env t wave .ftyp).run d (bytesBits d)
      = .error (.exc "Ftyp::readData(): box has invalid length")) ∧
    (8 ≤ d.length → d.length % 4 = 0 → ∃ n b, (BoxData.readData env t wave .ftyp).run d (bytesBits d) = .ok ((n, b), [])) := by
  obtain ⟨h1, h2, h3⟩ := Ftyp.takes d
  simp only [BoxData.readData, run_bind]
  refine ⟨fun h => by rw [h1 h], fun h h' => by rw [h2 h h'], fun h h' => ?_⟩
  obtain ⟨n, b, hr⟩ := h3 h h'
  rw [hr]
  exact ⟨n, .ftyp b, rfl⟩

/-- **C63.** `hdlr`: accepted only if the name reaches exactly to the end of the box, otherwise the end-of-stream exception. -/
theorem C63_hdlr (env : Env) (t : BoxType) (wave : Bool) (d : List Byte) :
    (24 ≤ d.length → Spec.hdlrNameFills d →
      ∃ n b, (BoxData.readData env t wave .hdlr).run d (bytesBits d) = .ok ((n, b), [])) ∧
    (d.length < 24 ∨ ¬ Spec.hdlrNameFills d → (BoxData.readData env t wave .hdlr).run d (bytesBits d) = .error .eof) := by
  obtain ⟨h1, h2⟩ := Hdlr.takes d
  simp only [BoxData.readData, run_bind]
  refine ⟨fun h h' => ?_, fun h => by rw [h2 h]⟩
  obtain ⟨n, b, hr⟩ := h1 h h'
  rw [hr]
  exact ⟨n, .hdlr b, rfl⟩

/-- **C63.** `sgpd` with alternative startup entries: all bytes of the entries, up to the first whose length does not fit, must be
there; if none has a length that does not fit, the payload is accepted.  A box of a version other than 1 has no default length; the
entries are then held against what the member of the new object happens to hold. -/
theorem C63_alst (env : Env) (t : BoxType) (wave : Bool) (d : List Byte) (ht : Spec.numAt d 4 4 = 0x616c7374) (N : Nat) (fits : Bool)
    (h : Spec.startup d env.sgpd.default_length.toNat = (N, fits)) :
    (d.length < N → (BoxData.readData env t wave .sgpd).run d (bytesBits d) = .error .eof) ∧
    (N ≤ d.length → fits = false → (BoxData.readData env t wave .sgpd).run d (bytesBits d)
      = .error (.exc "AlternativeStartupEntry::readData(): invalid offset of AlternativeStartupEntry")) ∧
    (N ≤ d.length → fits = true → ∃ n b,
      (BoxData.readData env t wave .sgpd).run d (bytesBits d) = .ok ((n, .sgpd b), bytesBits (d.drop N))) := by
  obtain ⟨h1, h2, h3⟩ := Sgpd.startup env.sgpd d ht d
  rw [h, List.drop_zero, bytesBits_length] at *
  simp only [BoxData.readData, run_bind]
  refine ⟨fun hN => by rw [h3 (by omega)], fun hN hf => by rw [h2 (by omega) hf]; rfl, fun hN hf => ?_⟩
  obtain ⟨n, b, hr⟩ := h1 (by omega) hf
  rw [hr, ← bytesBits_drop]
  exact ⟨n, b, rfl⟩

/-- **C63.** The only payloads that `C63_needed` leaves out are those of the three theorems above. -/
theorem C63_which (t : BoxType) (wave : Bool) (d : List Byte) (k : Kind) (h : Spec.needed t wave d k = none) :
    k = .hdlr ∨ k = .ftyp ∨ (k = .sgpd ∧ Spec.numAt d 4 4 = 0x616c7374) := by
  cases k <;> simp [Spec.needed] at h ⊢
  by_cases h' : Spec.numAt d 4 4 = 0x616c7374
  · exact h'
  · have h := h h'
    split at h <;> cases h

/-! Concrete payloads: an `stts` table that says it has 2 entries needs 24 bytes; a version 1 `mdhd` needs 36; a `trun` with two
samples, a data offset, and durations and sizes needs 28; an `avcC` of a high profile with one set of two bytes, another of one byte
and the extension. -/

example : Spec.needed (fourcc "stts") false [0, 0, 0, 0, 0, 0, 0, 2, 0, 0, 0, 1, 0, 0, 0, 9] .stts = some 24 := by decide +kernel
example : Spec.needed (fourcc "mdhd") false [1, 0, 0, 0] .mdhd = some 36 := by decide +kernel
example : Spec.needed (fourcc "trun") false [0, 0, 3, 1, 0, 0, 0, 2] .trun = some 28 := by decide +kernel
example : Spec.needed (fourcc "avcC") false [1, 100, 0, 30, 0xff, 0xe1, 0, 2, 0x67, 0x64, 1, 0, 1, 0x68, 0xfd, 0xf8, 0xf8, 0] .avcC
    = some 18 := by decide +kernel

/-! `esds`: a decoder configuration descriptor with a length field of two bytes and a `DecoderSpecificInfo` of 3 bytes; an ES
descriptor with a URL of two bytes; and an unknown tag, behind which nothing matters. -/
example : Spec.needed (fourcc "esds") false
    ([0, 0, 0, 0] ++ [4, 0x80, 18, 0x40, 0x15, 0, 0, 0, 0, 0, 0, 0, 0, 0, 0, 0] ++ [5, 3, 1, 2, 3]) .esds = some 25 := by decide +kernel
example : Spec.needed (fourcc "esds") false ([0, 0, 0, 0] ++ [3, 7, 0, 1, 0x40, 2, 0x61, 0x62]) .esds = some 12 := by decide +kernel
example : Spec.needed (fourcc "esds") false ([0, 0, 0, 0] ++ [9, 1, 2, 3]) .esds = some 5 := by decide +kernel

/-! `sgpd` with one alternative startup entry that has one sample offset and one pair of counts, with a default length of 12; with a
length of 12 in front of the entry; and with a default length of 10, which does not fit. -/
example : Spec.startup ([1, 0, 0, 0, 0x61, 0x6c, 0x73, 0x74, 0, 0, 0, 12, 0, 0, 0, 1] ++ [0, 1, 0, 0, 0, 0, 0, 7, 0, 1, 0, 1]) 0
    = (28, true) := by decide +kernel
example : Spec.startup ([1, 0, 0, 0, 0x61, 0x6c, 0x73, 0x74, 0, 0, 0, 0, 0, 0, 0, 1] ++ [0, 0, 0, 12, 0, 1, 0, 0, 0, 0, 0, 7, 0, 1,
    0, 1]) 0 = (32, true) := by decide +kernel
example : Spec.startup ([1, 0, 0, 0, 0x61, 0x6c, 0x73, 0x74, 0, 0, 0, 10, 0, 0, 0, 1] ++ [0, 1, 0, 0, 0, 0, 0, 7, 0, 1, 0, 1]) 0
    = (24, false) := by decide +kernel

/-- The name "ab" with its NUL byte fills the box. -/
example : Spec.hdlrNameFills (List.replicate 24 0 ++ [0x61, 0x62, 0]) := .inr (by decide +kernel)
/-- With one byte more it does not, and the box is refused. -/
example (env : Env) (t : BoxType) (wave : Bool) :
    (BoxData.readData env t wave .hdlr).run (List.replicate 24 0 ++ [0x61, 0x62, 0, 0])
      (bytesBits (List.replicate 24 0 ++ [0x61, 0x62, 0, 0])) = .error .eof :=
  (C63_hdlr env t wave _).2 (.inr (by unfold Spec.hdlrNameFills; decide +kernel))

end Mp4
