import Verif.Lemmas.Reads
import Verif.Lemmas.Box

/-! # The bits `readData` consumes, class by class -/

namespace Mp4
open R

/-- One field. -/
syntax "reads_field" : tactic
macro_rules
  | `(tactic| reads_field) => `(tactic| with_reducible first
      | exact reads_fullBox
      | exact reads_code4
      | exact reads_bool
      | exact reads_time _
      | exact reads_stime _
      | exact reads_uint _ (by decide)
      | exact reads_int _ (by decide) (by decide)
      | exact reads_ubits _ _ (by decide) (by decide)
      | exact reads_sbits _ _ (by decide) (by decide) (by decide)
      | exact reads_arr _ _ (by decide)
      | exact reads_arr_int _ _ (by decide) (by decide)
      | exact reads_vector _ _ (by decide)
      | exact reads_opt (reads_uint _ (by decide)) _ _
      | exact reads_opt (reads_int _ (by decide) (by decide)) _ _
      | exact reads_opt (reads_sbits _ _ (by decide) (by decide) (by decide)) _ _)

/-- A sequence of fields. -/
syntax "reads_fields" : tactic
macro_rules
  | `(tactic| reads_fields) => `(tactic| (
      try simp only [R.bind_eq, R.pure_eq]
      repeat (with_reducible first
      | refine ReadsFrom.bindEnd fun _ => ?_
      | refine ReadsFrom.bind (by reads_field) fun _ _ _ => ?_)))

theorem Btrt.reads : Reads Btrt.readData Layout.btrt fun _ => True := by
  refine ReadsFrom.start ?_
  rw [Btrt.readData]
  reads_fields
  exact ReadsFrom.ret ⟨by simp [Layout.btrt], trivial⟩

theorem Pasp.reads : Reads Pasp.readData Layout.pasp fun _ => True := by
  refine ReadsFrom.start ?_
  rw [Pasp.readData]
  reads_fields
  exact ReadsFrom.ret ⟨by simp [Layout.pasp], trivial⟩

theorem Fiel.reads : Reads Fiel.readData Layout.fiel fun _ => True := by
  refine ReadsFrom.start ?_
  rw [Fiel.readData]
  reads_fields
  exact ReadsFrom.ret ⟨by simp [Layout.fiel], trivial⟩

theorem Smhd.reads : Reads Smhd.readData Layout.smhd fun _ => True := by
  refine ReadsFrom.start ?_
  rw [Smhd.readData]
  reads_fields
  exact ReadsFrom.ret ⟨by simp [Layout.smhd], trivial⟩

theorem Vmhd.reads : Reads Vmhd.readData Layout.vmhd fun _ => True := by
  refine ReadsFrom.start ?_
  rw [Vmhd.readData]
  reads_fields
  exact ReadsFrom.ret ⟨by simp [Layout.vmhd], trivial⟩

theorem Mfhd.reads : Reads Mfhd.readData Layout.mfhd fun _ => True := by
  refine ReadsFrom.start ?_
  rw [Mfhd.readData]
  reads_fields
  exact ReadsFrom.ret ⟨by simp [Layout.mfhd], trivial⟩

theorem Mfro.reads : Reads Mfro.readData Layout.mfro fun _ => True := by
  refine ReadsFrom.start ?_
  rw [Mfro.readData]
  reads_fields
  exact ReadsFrom.ret ⟨by simp [Layout.mfro], trivial⟩

theorem Dref.reads : Reads Dref.readData Layout.dref fun _ => True := by
  refine ReadsFrom.start ?_
  rw [Dref.readData]
  reads_fields
  exact ReadsFrom.ret ⟨by simp [Layout.dref], trivial⟩

theorem Stsd.reads : Reads Stsd.readData Layout.stsd fun _ => True := by
  refine ReadsFrom.start ?_
  rw [Stsd.readData]
  reads_fields
  exact ReadsFrom.ret ⟨by simp [Layout.stsd], trivial⟩

theorem Trex.reads : Reads Trex.readData Layout.trex fun _ => True := by
  refine ReadsFrom.start ?_
  rw [Trex.readData]
  reads_fields
  exact ReadsFrom.ret ⟨by simp [Layout.trex], trivial⟩

theorem Mvhd.reads : Reads Mvhd.readData Layout.mvhd fun _ => True := by
  refine ReadsFrom.start ?_
  rw [Mvhd.readData]
  reads_fields
  exact ReadsFrom.ret ⟨by simp [Layout.mvhd], trivial⟩

theorem Tkhd.reads : Reads Tkhd.readData Layout.tkhd fun _ => True := by
  refine ReadsFrom.start ?_
  rw [Tkhd.readData]
  reads_fields
  exact ReadsFrom.ret ⟨by simp [Layout.tkhd], trivial⟩

theorem decode_language_ok (v : BitVec 16) : LangOk (decode_language v) := by
  have hmask : ∀ x : BitVec 16, (x &&& 0x1f#16).toNat < 32 := by
    intro x
    rw [BitVec.toNat_and, show (0x1f#16).toNat = 2 ^ 5 - 1 from rfl, Nat.and_two_pow_sub_one_eq_mod]
    omega
  have h0 := hmask (v >>> 10)
  have h1 := hmask (v >>> 5)
  have h2 := hmask v
  simp only [LangOk, decode_language, BitVec.toNat_add, BitVec.toNat_setWidth, BitVec.toNat_ofNat]
  omega

theorem encode_decode_language (v : BitVec 16) (h : v.toNat < 2 ^ 15) : encode_language (decode_language v) = v := by
  have hmask : ∀ x : BitVec 16, (x &&& 0x1f#16).toNat = x.toNat % 32 := by
    intro x
    rw [BitVec.toNat_and, show (0x1f#16).toNat = 2 ^ 5 - 1 from rfl, Nat.and_two_pow_sub_one_eq_mod]
  apply BitVec.eq_of_toNat_eq
  rw [encode_language_toNat _ (decode_language_ok v)]
  simp only [decode_language, BitVec.toNat_add, BitVec.toNat_setWidth, hmask, BitVec.toNat_ushiftRight,
    Nat.shiftRight_eq_div_pow, BitVec.toNat_ofNat]
  omega

theorem language_decode (v : BitVec 16) (h : v.toNat < 2 ^ 15) : Layout.language (decode_language v) = ubits 15 v := by
  rw [← language_layout _ (decode_language_ok v), encode_decode_language v h]

theorem Mdhd.reads : Reads Mdhd.readData Layout.mdhd fun b => LangOk b.language := by
  refine ReadsFrom.start ?_
  rw [Mdhd.readData]
  reads_fields
  rename_i v hv _ _ _
  exact ReadsFrom.ret ⟨by simp [Layout.mdhd, language_decode v hv], decode_language_ok v⟩

theorem Mehd.reads : Reads Mehd.readData Layout.mehd fun _ => True := by
  refine ReadsFrom.start ?_
  rw [Mehd.readData]
  reads_fields
  exact ReadsFrom.ret ⟨by simp [Layout.mehd], trivial⟩

theorem Tfdt.reads : Reads Tfdt.readData Layout.tfdt fun _ => True := by
  refine ReadsFrom.start ?_
  rw [Tfdt.readData]
  reads_fields
  exact ReadsFrom.ret ⟨by simp [Layout.tfdt], trivial⟩

theorem ElstEntry.reads (fb : FullBox) : Reads (ElstEntry.readData (vw fb)) (Layout.elstEntry fb) fun _ => True := by
  refine ReadsFrom.start ?_
  rw [ElstEntry.readData]
  reads_fields
  exact ReadsFrom.ret ⟨by simp [Layout.elstEntry], trivial⟩

theorem Elst.reads : Reads Elst.readData Layout.elst fun _ => True := by
  refine ReadsFrom.start ?_
  rw [Elst.readData]
  reads_fields
  refine ReadsFrom.bind (reads_readN (ElstEntry.reads _) _) fun _ _ h => ?_
  exact ReadsFrom.ret ⟨by simp [Layout.elst, h.1, cbits_toNat], trivial⟩

theorem SidxReference.reads : Reads SidxReference.readData Layout.sidxReference fun _ => True := by
  refine ReadsFrom.start ?_
  rw [SidxReference.readData]
  reads_fields
  exact ReadsFrom.ret ⟨by simp [Layout.sidxReference], trivial⟩

theorem Sidx.reads : Reads Sidx.readData Layout.sidx fun _ => True := by
  refine ReadsFrom.start ?_
  rw [Sidx.readData]
  reads_fields
  refine ReadsFrom.bind (reads_readN SidxReference.reads _) fun _ _ h => ?_
  exact ReadsFrom.ret ⟨by simp [Layout.sidx, h.1, cbits_toNat], trivial⟩

theorem SttsEntry.reads : Reads SttsEntry.readData Layout.sttsEntry fun _ => True := by
  refine ReadsFrom.start ?_
  rw [SttsEntry.readData]
  reads_fields
  exact ReadsFrom.ret ⟨by simp [Layout.sttsEntry], trivial⟩

theorem Stts.reads : Reads Stts.readData Layout.stts fun _ => True := by
  refine ReadsFrom.start ?_
  rw [Stts.readData]
  reads_fields
  refine ReadsFrom.bind (reads_readN SttsEntry.reads _) fun _ _ h => ?_
  exact ReadsFrom.ret ⟨by simp [Layout.stts, h.1, cbits_toNat], trivial⟩

theorem CttsEntry.reads : Reads CttsEntry.readData Layout.cttsEntry fun _ => True := by
  refine ReadsFrom.start ?_
  rw [CttsEntry.readData]
  reads_fields
  exact ReadsFrom.ret ⟨by simp [Layout.cttsEntry], trivial⟩

theorem Ctts.reads : Reads Ctts.readData Layout.ctts fun _ => True := by
  refine ReadsFrom.start ?_
  rw [Ctts.readData]
  reads_fields
  refine ReadsFrom.bind (reads_readN CttsEntry.reads _) fun _ _ h => ?_
  exact ReadsFrom.ret ⟨by simp [Layout.ctts, h.1, cbits_toNat], trivial⟩

theorem StscEntry.reads : Reads StscEntry.readData Layout.stscEntry fun _ => True := by
  refine ReadsFrom.start ?_
  rw [StscEntry.readData]
  reads_fields
  exact ReadsFrom.ret ⟨by simp [Layout.stscEntry], trivial⟩

theorem Stsc.reads : Reads Stsc.readData Layout.stsc fun _ => True := by
  refine ReadsFrom.start ?_
  rw [Stsc.readData]
  reads_fields
  refine ReadsFrom.bind (reads_readN StscEntry.reads _) fun _ _ h => ?_
  exact ReadsFrom.ret ⟨by simp [Layout.stsc, h.1, cbits_toNat], trivial⟩

theorem Stco.reads : Reads Stco.readData Layout.stco fun _ => True := by
  refine ReadsFrom.start ?_
  rw [Stco.readData]
  reads_fields
  rename_i h
  exact ReadsFrom.ret ⟨by simp [Layout.stco, h, cbits_toNat], trivial⟩

theorem Co64.reads : Reads Co64.readData Layout.co64 fun _ => True := by
  refine ReadsFrom.start ?_
  rw [Co64.readData]
  reads_fields
  rename_i h
  exact ReadsFrom.ret ⟨by simp [Layout.co64, h, cbits_toNat], trivial⟩

theorem Stss.reads : Reads Stss.readData Layout.stss fun _ => True := by
  refine ReadsFrom.start ?_
  rw [Stss.readData]
  reads_fields
  rename_i h
  exact ReadsFrom.ret ⟨by simp [Layout.stss, h, cbits_toNat], trivial⟩

theorem SdtpSample.reads : Reads SdtpSample.readData Layout.sdtpSample fun _ => True := by
  refine ReadsFrom.start ?_
  rw [SdtpSample.readData]
  reads_fields
  exact ReadsFrom.ret ⟨by simp [Layout.sdtpSample], trivial⟩

theorem Sdtp.reads : Reads Sdtp.readData Layout.sdtp fun _ => True := by
  refine ReadsFrom.start ?_
  rw [Sdtp.readData]
  reads_fields
  refine ReadsFrom.bind (reads_readN SdtpSample.reads _) fun _ _ h => ?_
  exact ReadsFrom.ret ⟨by simp [Layout.sdtp], trivial⟩

theorem SbgpEntry.reads : Reads SbgpEntry.readData Layout.sbgpEntry fun _ => True := by
  refine ReadsFrom.start ?_
  rw [SbgpEntry.readData]
  reads_fields
  exact ReadsFrom.ret ⟨by simp [Layout.sbgpEntry], trivial⟩

theorem Sbgp.reads (old : BitVec 32) : Reads (Sbgp.readData old) Layout.sbgp fun _ => True := by
  refine ReadsFrom.start ?_
  rw [Sbgp.readData]
  reads_fields
  refine ReadsFrom.bind (reads_readN SbgpEntry.reads _) fun _ _ h => ?_
  exact ReadsFrom.ret ⟨by simp [Layout.sbgp, h.1, cbits_toNat], trivial⟩

theorem Tfhd.reads (old : Tfhd) : Reads (Tfhd.readData old) Layout.tfhd fun _ => True := by
  refine ReadsFrom.start ?_
  rw [Tfhd.readData]
  reads_fields
  exact ReadsFrom.ret ⟨by simp [Layout.tfhd], trivial⟩

theorem Tfra.reads : Reads Tfra.readData Layout.tfra Tfra.LengthsOk := by
  refine ReadsFrom.start ?_
  rw [Tfra.readData]
  refine ReadsFrom.bind reads_fullBox fun _ fb _ => ?_
  refine ReadsFrom.bind (reads_uint _ (by decide)) fun _ id _ => ?_
  refine ReadsFrom.bind (reads_ubits _ _ (by decide) (by decide)) fun _ res _ => ?_
  refine ReadsFrom.bind (reads_ubits _ _ (by decide) (by decide)) fun _ l0 h0 => ?_
  refine ReadsFrom.bind (reads_ubits _ _ (by decide) (by decide)) fun _ l1 h1 => ?_
  refine ReadsFrom.bind (reads_ubits _ _ (by decide) (by decide)) fun _ l2 h2 => ?_
  refine ReadsFrom.bind (reads_uint _ (by decide)) fun _ cnt _ => ?_
  have he : Reads (TfraEntry.readData (vw fb) l0 l1 l2) (Layout.tfraEntry ⟨fb, id, res, l0, l1, l2, []⟩) fun _ => True := by
    refine ReadsFrom.start ?_
    rw [TfraEntry.readData]
    refine ReadsFrom.bind (reads_time fb) fun _ _ _ => ?_
    refine ReadsFrom.bind (reads_time fb) fun _ _ _ => ?_
    refine ReadsFrom.bind (reads_ubits _ _ (by omega) (by decide)) fun _ _ _ => ?_
    refine ReadsFrom.bind (reads_ubits _ _ (by omega) (by decide)) fun _ _ _ => ?_
    refine ReadsFrom.bind (reads_ubits _ _ (by omega) (by decide)) fun _ _ _ => ?_
    exact ReadsFrom.ret ⟨by simp [Layout.tfraEntry], trivial⟩
  refine ReadsFrom.bind (reads_readN he _) fun _ es h => ?_
  refine ReadsFrom.ret ⟨?_, h0, h1, h2⟩
  have : Layout.tfraEntry ⟨fb, id, res, l0, l1, l2, es⟩ = Layout.tfraEntry ⟨fb, id, res, l0, l1, l2, []⟩ := rfl
  simp [Layout.tfra, h.1, cbits_toNat, this]

theorem TrunEntry.reads (fb : FullBox) : Reads (TrunEntry.readData fb) (Layout.trunEntry fb) fun _ => True := by
  refine ReadsFrom.start ?_
  rw [TrunEntry.readData]
  reads_fields
  exact ReadsFrom.ret ⟨by simp [Layout.trunEntry], trivial⟩

theorem Trun.reads (old : Trun) : Reads (Trun.readData old) Layout.trun fun _ => True := by
  refine ReadsFrom.start ?_
  rw [Trun.readData]
  reads_fields
  refine ReadsFrom.bind (reads_readN (TrunEntry.reads _) _) fun _ _ h => ?_
  exact ReadsFrom.ret ⟨by simp [Layout.trun, h.1, cbits_toNat], trivial⟩

theorem reads_parameterSet : Reads AVCParameterSet.readData Layout.parameterSet fun _ => True := by
  refine ReadsFrom.start ?_
  rw [AVCParameterSet.readData]
  reads_fields
  rename_i h
  exact ReadsFrom.ret ⟨by simp [Layout.parameterSet, h, cbits_toNat], trivial⟩

theorem cbits_of_ubits {w : Nat} (n : Nat) (v : BitVec w) : cbits n v.toNat = ubits n v := rfl

theorem AvcC.reads (old : AvcC) : Reads (AvcC.readData old) Layout.avcC AvcC.Consistent := by
  refine ReadsFrom.start ?_
  rw [AvcC.readData]
  reads_fields
  refine ReadsFrom.bind (reads_readN reads_parameterSet _) fun _ _ h1 => ?_
  reads_fields
  refine ReadsFrom.bind (reads_readN reads_parameterSet _) fun _ _ h2 => ?_
  dsimp only
  refine ReadsFrom.ite (fun _ => ?_) fun hp => ?_
  · exact ReadsFrom.ret ⟨by simp [Layout.avcC, h1.1, h2.1, cbits_toNat, cbits_of_ubits, onlyIf], by simp [AvcC.Consistent]⟩
  · refine ReadsFrom.bindEnd fun _ => ?_
    refine ReadsFrom.ite (fun _ => ?_) fun _ => ?_
    · exact ReadsFrom.ret ⟨by simp [Layout.avcC, h1.1, h2.1, cbits_toNat, cbits_of_ubits, onlyIf], by simp [AvcC.Consistent]⟩
    · reads_fields
      refine ReadsFrom.bind (reads_readN reads_parameterSet _) fun _ _ h3 => ?_
      exact ReadsFrom.ret ⟨by simp [Layout.avcC, Layout.avcCHigh, h1.1, h2.1, h3.1, cbits_toNat, cbits_of_ubits, onlyIf],
        fun _ => by simpa using hp⟩

theorem Av1C.reads : Reads Av1C.readData Layout.av1C fun _ => True := by
  refine ReadsFrom.start ?_
  rw [Av1C.readData]
  reads_fields
  exact ReadsFrom.ret ⟨by simp [Layout.av1C], trivial⟩

theorem VpcC.reads : Reads VpcC.readData Layout.vpcC fun _ => True := by
  refine ReadsFrom.start ?_
  rw [VpcC.readData]
  reads_fields
  dsimp only
  refine ReadsFrom.ite (fun hv => ?_) fun hv => ?_
  · exact ReadsFrom.ret ⟨by simp [Layout.vpcC, hv, onlyIf], trivial⟩
  · reads_fields
    rename_i h
    exact ReadsFrom.ret ⟨by simp [Layout.vpcC, hv, onlyIf, h, cbits_toNat], trivial⟩

theorem DOps.reads : Reads DOps.readData Layout.dOps fun _ => True := by
  refine ReadsFrom.start ?_
  rw [DOps.readData]
  reads_fields
  dsimp only
  refine ReadsFrom.ite (fun hv => ?_) fun hv => ?_
  · exact ReadsFrom.ret ⟨by simp [Layout.dOps, hv, onlyIf], trivial⟩
  · reads_fields
    exact ReadsFrom.ret ⟨by simp [Layout.dOps, hv, onlyIf], trivial⟩

theorem reads_reservedAndIndex : Reads readReservedAndIndex (fun x => vbits x.1 ++ bits x.2) fun _ => True := by
  refine ReadsFrom.start ?_
  rw [readReservedAndIndex]
  reads_fields
  exact ReadsFrom.ret ⟨by simp, trivial⟩

theorem VisualSampleEntry.reads (t : BoxType) :
    Reads (VisualSampleEntry.readData t) Layout.visualSampleEntry fun b => b.type = t := by
  refine ReadsFrom.start ?_
  rw [VisualSampleEntry.readData]
  refine ReadsFrom.bind reads_reservedAndIndex fun _ x _ => ?_
  obtain ⟨a, b⟩ := x
  dsimp only
  reads_fields
  exact ReadsFrom.ret ⟨by simp [Layout.visualSampleEntry], rfl⟩

theorem AudioSampleEntry.reads (old : AudioSampleEntry) (hw : old.under_wave = false) :
    Reads (AudioSampleEntry.readData old) Layout.audioSampleEntry fun b => b.type = old.type := by
  refine ReadsFrom.start ?_
  rw [AudioSampleEntry.readData, if_neg (by simp [hw])]
  refine ReadsFrom.bind reads_reservedAndIndex fun _ x _ => ?_
  obtain ⟨a, b⟩ := x
  dsimp only
  reads_fields
  dsimp only
  refine ReadsFrom.ite (fun _ => ?_) fun _ => ?_
  · exact ReadsFrom.ret ⟨by simp [Layout.audioSampleEntry, onlyIf], rfl⟩
  · refine ReadsFrom.bindEnd fun _ => ?_
    refine ReadsFrom.ite (fun _ => ?_) fun _ => ?_
    · exact ReadsFrom.ret ⟨by simp [Layout.audioSampleEntry, onlyIf], rfl⟩
    · reads_fields
      exact ReadsFrom.ret ⟨by simp [Layout.audioSampleEntry, onlyIf], rfl⟩

theorem Data.reads : Reads Data.readData Layout.data fun _ => True := by
  refine ReadsFrom.start ?_
  rw [Data.readData]
  reads_fields
  exact ReadsFrom.ret ⟨by simp [Layout.data], trivial⟩

theorem Colr.reads (old : Colr) : Reads (Colr.readData old) Layout.colr fun _ => True := by
  refine ReadsFrom.start ?_
  rw [Colr.readData]
  reads_fields
  dsimp only
  refine ReadsFrom.ite (fun hn => ?_) fun hn => ?_
  · reads_fields
    exact ReadsFrom.ret ⟨by simp [Layout.colr, hn], trivial⟩
  · refine ReadsFrom.bindEnd fun _ => ?_
    refine ReadsFrom.ite (fun hp => ?_) fun hp => ?_
    · reads_fields
      exact ReadsFrom.ret ⟨by simp [Layout.colr, hn, hp], trivial⟩
    · reads_fields
      exact ReadsFrom.ret ⟨by simp [Layout.colr, hn, hp], trivial⟩

theorem Pssh.reads (old : Pssh) : Reads (Pssh.readData old) Layout.pssh fun _ => True := by
  refine ReadsFrom.start ?_
  rw [Pssh.readData]
  reads_fields
  have hk : Reads (do
      let (s0, kid_count) ← read_uint 32
      let (s1, kids) ← readN (read_arr 8 16) kid_count.toNat
      pure (s0 + s1, kids) : R (Nat × List (Vector Byte 16)))
      (fun kids => cbits 32 kids.length ++ kids.flatMap vbits) fun _ => True := by
    refine ReadsFrom.start ?_
    reads_fields
    refine ReadsFrom.bind (reads_readN (reads_arr _ _ (by decide)) _) fun _ _ h => ?_
    exact ReadsFrom.ret ⟨by simp [h.1, cbits_toNat], trivial⟩
  refine ReadsFrom.bind (reads_opt hk _ _) fun _ _ _ => ?_
  reads_fields
  rename_i h
  exact ReadsFrom.ret ⟨by simp [Layout.pssh, h, cbits_toNat], trivial⟩

theorem Ftyp.reads : Reads Ftyp.readData Layout.ftyp fun _ => True := by
  refine ReadsFrom.start ?_
  rw [Ftyp.readData]
  reads_fields
  refine ReadsFrom.ite (fun _ => ReadsFrom.throw) fun _ => ?_
  refine ReadsFrom.bind (reads_readN reads_code4 _) fun _ _ h => ?_
  exact ReadsFrom.ret ⟨by simp [Layout.ftyp], trivial⟩

theorem Opaque.reads : Reads Opaque.readData Layout.opaque fun _ => True := by
  refine ReadsFrom.start ?_
  rw [Opaque.readData]
  reads_fields
  exact ReadsFrom.ret ⟨by simp [Layout.opaque], trivial⟩

theorem RollDistance.reads (wl : Bool) : Reads (RollDistance.readData wl) Layout.rollDistance fun _ => True := by
  refine ReadsFrom.start ?_
  rw [RollDistance.readData]
  reads_fields
  exact ReadsFrom.ret ⟨by simp [Layout.rollDistance], trivial⟩

theorem StartupOpt.reads : Reads StartupOpt.readData Layout.startupOpt fun _ => True := by
  refine ReadsFrom.start ?_
  rw [StartupOpt.readData]
  reads_fields
  exact ReadsFrom.ret ⟨by simp [Layout.startupOpt], trivial⟩

theorem StartupEntry.reads (len : BitVec 32) (wl : Bool) :
    Reads (StartupEntry.readData len wl) Layout.startupEntry fun _ => True := by
  refine ReadsFrom.start ?_
  rw [StartupEntry.readData]
  reads_fields
  dsimp only
  refine ReadsFrom.ite (fun _ => ReadsFrom.throw) fun _ => ?_
  refine ReadsFrom.bind (reads_readN StartupOpt.reads _) fun _ _ h => ?_
  exact ReadsFrom.ret ⟨by simp [Layout.startupEntry], trivial⟩

theorem RapEntry.reads (wl : Bool) : Reads (RapEntry.readData wl) Layout.rapEntry fun _ => True := by
  refine ReadsFrom.start ?_
  rw [RapEntry.readData]
  reads_fields
  exact ReadsFrom.ret ⟨by simp [Layout.rapEntry], trivial⟩

theorem TeleEntry.reads (wl : Bool) : Reads (TeleEntry.readData wl) Layout.teleEntry fun _ => True := by
  refine ReadsFrom.start ?_
  rw [TeleEntry.readData]
  reads_fields
  exact ReadsFrom.ret ⟨by simp [Layout.teleEntry], trivial⟩

theorem Sgpd.reads (old : Sgpd) : Reads (Sgpd.readData old) Layout.sgpd fun _ => True := by
  refine ReadsFrom.start ?_
  rw [Sgpd.readData]
  refine ReadsFrom.bind reads_fullBox fun _ fb _ => ?_
  refine ReadsFrom.bind reads_code4 fun _ g _ => ?_
  refine ReadsFrom.bind (reads_uint _ (by decide)) fun _ v _ => ?_
  dsimp only
  by_cases hv : fb.version = 1#8 <;> simp only [show (1 : Byte) = 1#8 from rfl, hv, if_true, if_false]
  all_goals
    refine ReadsFrom.ite (fun h1 => ?_) fun h1 => ?_
    · reads_fields
      refine ReadsFrom.bind (reads_readN (RollDistance.reads _) _) fun _ _ h => ?_
      exact ReadsFrom.ret ⟨by simp [Layout.sgpd, h.1, cbits_toNat, hv, h1], trivial⟩
    refine ReadsFrom.ite (fun h2 => ?_) fun h2 => ?_
    · reads_fields
      refine ReadsFrom.bind (reads_readN (StartupEntry.reads _ _) _) fun _ _ h => ?_
      exact ReadsFrom.ret ⟨by simp [Layout.sgpd, h.1, cbits_toNat, hv, h1, h2], trivial⟩
    refine ReadsFrom.ite (fun h3 => ?_) fun h3 => ?_
    · reads_fields
      refine ReadsFrom.bind (reads_readN (RapEntry.reads _) _) fun _ _ h => ?_
      exact ReadsFrom.ret ⟨by simp [Layout.sgpd, h.1, cbits_toNat, hv, h1, h2, h3], trivial⟩
    refine ReadsFrom.ite (fun h4 => ?_) fun h4 => ?_
    · reads_fields
      refine ReadsFrom.bind (reads_readN (TeleEntry.reads _) _) fun _ _ h => ?_
      exact ReadsFrom.ret ⟨by simp [Layout.sgpd, h.1, cbits_toNat, hv, h1, h2, h3, h4], trivial⟩
    exact ReadsFrom.ret ⟨by simp [Layout.sgpd, hv, h1, h2, h3, h4], trivial⟩

end Mp4
