import Verif.Lemmas.ReadExact
import Verif.Props.Reader

/-! # C55: undefined behaviour while reading -/

namespace Mp4
open R

/-- No path through the reading program ends in undefined behaviour. -/
inductive NoUb {α : Type} : R α → Prop
  | ret (a : α) : NoUb (.ret a)
  | throw (e : Err) (h : ∀ w, e ≠ .ub w) : NoUb (.throw e)
  | bit (k : Bool → R α) (h : ∀ b, NoUb (k b)) : NoUb (.bit k)
  | toEnd (k : Nat → R α) (h : ∀ n, NoUb (k n)) : NoUb (.toEnd k)
  | tell (k : Nat → R α) (h : ∀ n, NoUb (k n)) : NoUb (.tell k)
  | seek (o : Nat) (k : R α) (h : NoUb k) : NoUb (.seek o k)

namespace NoUb
variable {α β : Type}

theorem bind {p : R α} {g : α → R β} (hp : NoUb p) (hg : ∀ a, NoUb (g a)) : NoUb (p.bind g) := by
  induction hp with
  | ret a => exact hg a
  | throw e h => exact .throw e h
  | bit k _ ih => exact .bit _ ih
  | toEnd k _ ih => exact .toEnd _ ih
  | tell k _ ih => exact .tell _ ih
  | seek o k _ ih => exact .seek o _ ih

theorem ite {c : Prop} [Decidable c] {p q : R α} (hp : NoUb p) (hq : NoUb q) : NoUb (if c then p else q) := by
  split
  · exact hp
  · exact hq

theorem exc {w : String} : NoUb (α := α) (.throw (.exc w)) := .throw _ (by intro w h; cases h)
theorem eof : NoUb (α := α) (.throw .eof) := .throw _ (by intro w h; cases h)

theorem runC {p : R α} (h : NoUb p) (r : Reader) (w : String) : p.runC r ≠ .error (.ub w) := by
  induction h generalizing r with
  | ret a => rw [R.runC]; intro h; cases h
  | throw e h => rw [R.runC]; intro h'; cases h'; exact h _ rfl
  | bit k _ ih =>
    rw [R.runC]
    intro h'
    cases hb : r.readBit with
    | error e =>
      rw [hb] at h'
      cases h'
      unfold Reader.readBit at hb
      split at hb <;> try cases hb
      split at hb <;> cases hb
    | ok x => rw [hb] at h'; exact ih _ _ h'
  | toEnd k _ ih => rw [R.runC]; exact ih _ _
  | tell k _ ih => rw [R.runC]; exact ih _ _
  | seek o k _ ih =>
    rw [R.runC]
    split
    · exact ih _
    · intro h; cases h

end NoUb

theorem noUb_readBitList : ∀ n, NoUb (readBitList n)
  | 0 => .ret _
  | n + 1 => .bit _ fun _ => (noUb_readBitList n).bind fun _ => .ret _
theorem noUb_readBits (n : Nat) : NoUb (R.readBits n) := (noUb_readBitList n).bind fun _ => .ret _
theorem noUb_read_uint (w n : Nat) : NoUb (read_uint w n) :=
  .ite .exc ((noUb_readBits n).bind fun _ => .ret _)
theorem noUb_read_int (w n : Nat) : NoUb (read_int w n) := by
  refine .ite .exc ((noUb_readBits n).bind fun v => ?_)
  cases v with
  | nil => exact .ret _
  | cons d0 ds => exact .ite (.ret _) (.ret _)
theorem noUb_read_bool : NoUb read_bool := (noUb_readBits 1).bind fun _ => .ret _
theorem noUb_offsetToEnd : NoUb offsetToEnd := .toEnd _ fun n => .ret n
theorem noUb_tellg : NoUb tellg := .tell _ fun n => .ret n
theorem noUb_seekg (o : Nat) : NoUb (seekg o) := .seek o _ (.ret _)
theorem noUb_readN {α : Type} {p : R (Nat × α)} (hp : NoUb p) : ∀ n, NoUb (readN p n)
  | 0 => .ret _
  | n + 1 => hp.bind fun _ => (noUb_readN hp n).bind fun _ => .ret _
theorem noUb_read_vector_uint (w n : Nat) : NoUb (read_vector_uint w n) := noUb_readN (noUb_read_uint w w) n
theorem noUb_read_arr (w n : Nat) : NoUb (read_arr w n) := (noUb_readN (noUb_read_uint w w) n).bind fun _ => .ret _
theorem noUb_read_arr_int (w n : Nat) : NoUb (read_arr_int w n) :=
  (noUb_readN (noUb_read_int w w) n).bind fun _ => .ret _
theorem noUb_read_array4 : NoUb read_array_uint8_4 :=
  (noUb_read_uint _ _).bind fun _ => (noUb_read_uint _ _).bind fun _ => (noUb_read_uint _ _).bind fun _ =>
    (noUb_read_uint _ _).bind fun _ => .ret _
theorem noUb_readUvarintGo (w : Nat) : ∀ f v r, NoUb (readUvarintGo w f v r)
  | 0, _, _ => .eof
  | f + 1, _, _ => (noUb_readBits 8).bind fun _ => .ite (.ret _) (noUb_readUvarintGo w f _ _)
theorem noUb_read_uvarint (w : Nat) : NoUb (read_uvarint w) := noUb_offsetToEnd.bind fun _ => noUb_readUvarintGo w _ _ _
theorem noUb_readStringGo : ∀ k, NoUb (readStringGo k)
  | 0 => .ret _
  | k + 1 => (noUb_readBits 8).bind fun _ => .ite (.ret _) ((noUb_readStringGo k).bind fun _ => .ret _)
theorem noUb_read_string (m : Nat) : NoUb (read_string m) := noUb_readStringGo _
theorem noUb_readBytes8 : ∀ k, NoUb (readBytes8 k)
  | 0 => .ret _
  | k + 1 => (noUb_readBits 8).bind fun _ => (noUb_readBytes8 k).bind fun _ => .ret _
theorem noUb_read_pascal_string (m : Nat) : NoUb (read_pascal_string m) :=
  .ite (noUb_read_string m) (noUb_tellg.bind fun _ => (noUb_readBits 8).bind fun _ =>
    .ite ((noUb_seekg _).bind fun _ => noUb_read_string m) ((noUb_readBytes8 _).bind fun _ => .ret _))
theorem noUb_opt {α : Type} {p : R (Nat × α)} (hp : NoUb p) (c : Bool) (old : α) : NoUb (R.opt c p old) := by
  cases c
  · exact .ret _
  · exact hp
theorem noUb_fullBox : NoUb FullBox.readVersionAndFlag :=
  (noUb_read_uint _ _).bind fun _ => (noUb_read_uint _ _).bind fun _ => (noUb_read_uint _ _).bind fun _ =>
    (noUb_read_uint _ _).bind fun _ => .ret _

macro "noub_prim" : tactic => `(tactic| first
  | with_reducible exact noUb_read_uint _ _ | with_reducible exact noUb_read_int _ _ | with_reducible exact noUb_read_bool | with_reducible exact noUb_fullBox
  | with_reducible exact noUb_read_array4 | with_reducible exact noUb_read_vector_uint _ _ | with_reducible exact noUb_read_arr _ _
  | with_reducible exact noUb_read_arr_int _ _ | with_reducible exact noUb_read_uvarint _ | with_reducible exact noUb_read_string _
  | with_reducible exact noUb_read_pascal_string _ | with_reducible exact noUb_offsetToEnd
  | with_reducible exact noUb_tellg | with_reducible exact noUb_seekg _ | with_reducible exact noUb_readBits _
  | assumption)

macro "noub_step" : tactic => `(tactic| first
  | with_reducible exact NoUb.exc
  | with_reducible exact NoUb.eof
  | with_reducible exact NoUb.ret _
  | noub_prim
  | with_reducible refine NoUb.bind ?_ (fun _ => ?_)
  | with_reducible refine NoUb.ite ?_ ?_
  | with_reducible refine noUb_opt ?_ _ _
  | with_reducible refine noUb_readN ?_ _
  | (split))

macro "noub" "[" ts:Lean.Parser.Tactic.simpLemma,* "]" : tactic => `(tactic| (
  simp only [$ts,*, bind_eq, pure_eq, ret_bind, throw_bind, bind_assoc']
  repeat noub_step))

theorem noUb_Btrt : NoUb Btrt.readData := by noub [Btrt.readData]
theorem noUb_Pasp : NoUb Pasp.readData := by noub [Pasp.readData]
theorem noUb_Fiel : NoUb Fiel.readData := by noub [Fiel.readData]
theorem noUb_Smhd : NoUb Smhd.readData := by noub [Smhd.readData]
theorem noUb_Vmhd : NoUb Vmhd.readData := by noub [Vmhd.readData]
theorem noUb_Mfhd : NoUb Mfhd.readData := by noub [Mfhd.readData]
theorem noUb_Mfro : NoUb Mfro.readData := by noub [Mfro.readData]
theorem noUb_Dref : NoUb Dref.readData := by noub [Dref.readData]
theorem noUb_Stsd : NoUb Stsd.readData := by noub [Stsd.readData]
theorem noUb_Trex : NoUb Trex.readData := by noub [Trex.readData]
theorem noUb_Iods : NoUb Iods.readData := by noub [Iods.readData]
theorem noUb_Mvhd : NoUb Mvhd.readData := by noub [Mvhd.readData]
theorem noUb_Tkhd : NoUb Tkhd.readData := by noub [Tkhd.readData]
theorem noUb_Mdhd : NoUb Mdhd.readData := by noub [Mdhd.readData]
theorem noUb_Mehd : NoUb Mehd.readData := by noub [Mehd.readData]
theorem noUb_Tfdt : NoUb Tfdt.readData := by noub [Tfdt.readData]
theorem noUb_Data : NoUb Data.readData := by noub [Data.readData]
theorem noUb_Ftyp : NoUb Ftyp.readData := by noub [Ftyp.readData]
theorem noUb_Meta : NoUb Meta.readData := by noub [Meta.readData]
theorem noUb_Opaque : NoUb Opaque.readData := by noub [Opaque.readData]
theorem noUb_Av1C : NoUb Av1C.readData := by noub [Av1C.readData]
theorem noUb_VpcC : NoUb VpcC.readData := by noub [VpcC.readData]
theorem noUb_DOps : NoUb DOps.readData := by noub [DOps.readData]
theorem noUb_Stco : NoUb Stco.readData := by noub [Stco.readData]
theorem noUb_Co64 : NoUb Co64.readData := by noub [Co64.readData]
theorem noUb_Stss : NoUb Stss.readData := by noub [Stss.readData]
theorem noUb_Stsz : NoUb Stsz.readData := by noub [Stsz.readData]
theorem noUb_Hdlr : NoUb Hdlr.readData := by noub [Hdlr.readData]
theorem noUb_Url (old) : NoUb (Url.readData old) := by noub [Url.readData]
theorem noUb_Urn (old) : NoUb (Urn.readData old) := by noub [Urn.readData]
theorem noUb_Colr (old) : NoUb (Colr.readData old) := by noub [Colr.readData]
theorem noUb_Tfhd (old) : NoUb (Tfhd.readData old) := by noub [Tfhd.readData]
theorem noUb_Pssh (old) : NoUb (Pssh.readData old) := by noub [Pssh.readData]
theorem noUb_Emsg : NoUb Emsg.readData := by noub [Emsg.readData, Emsg.readTail]
theorem noUb_VisualSampleEntry (t) : NoUb (VisualSampleEntry.readData t) := by
  noub [VisualSampleEntry.readData, readReservedAndIndex]
theorem noUb_AudioSampleEntry (t) : NoUb (AudioSampleEntry.readData t) := by
  noub [AudioSampleEntry.readData, readReservedAndIndex]
theorem noUb_Stts : NoUb Stts.readData := by noub [Stts.readData, SttsEntry.readData]
theorem noUb_Ctts : NoUb Ctts.readData := by noub [Ctts.readData, CttsEntry.readData]
theorem noUb_Stsc : NoUb Stsc.readData := by noub [Stsc.readData, StscEntry.readData]
theorem noUb_Sdtp : NoUb Sdtp.readData := by noub [Sdtp.readData, SdtpSample.readData]
theorem noUb_Sidx : NoUb Sidx.readData := by noub [Sidx.readData, SidxReference.readData]
theorem noUb_Sbgp (old) : NoUb (Sbgp.readData old) := by noub [Sbgp.readData, SbgpEntry.readData]
theorem noUb_Tfra : NoUb Tfra.readData := by noub [Tfra.readData, TfraEntry.readData]
theorem noUb_Trun (old) : NoUb (Trun.readData old) := by noub [Trun.readData, TrunEntry.readData]
theorem noUb_Elst : NoUb Elst.readData := by noub [Elst.readData, ElstEntry.readData]
theorem noUb_AvcC (old) : NoUb (AvcC.readData old) := by noub [AvcC.readData, AVCParameterSet.readData]
theorem noUb_Sgpd (old) : NoUb (Sgpd.readData old) := by
  simp only [Sgpd.readData, bind_eq, pure_eq]
  refine .bind noUb_fullBox fun _ => .bind noUb_read_array4 fun _ => .bind (noUb_read_uint _ _) fun _ => ?_
  refine .ite ?_ (.ite ?_ (.ite ?_ (.ite ?_ (.ret _)))) <;>
    refine .bind (noUb_read_uint _ _) fun _ => .bind (noUb_readN ?_ _) fun _ => .ret _
  · noub [RollDistance.readData]
  · noub [StartupEntry.readData, StartupOpt.readData]
  · noub [RapEntry.readData]
  · noub [TeleEntry.readData]
theorem noUb_EsdsGo (g : ESJunk) (fb : FullBox) : ∀ fuel rb acc, NoUb (Esds.readGo g fb fuel rb acc)
  | 0, _, _ => .ret _
  | fuel + 1, _, _ => by
    have ih := noUb_EsdsGo g fb fuel
    rw [Esds.readGo]
    refine .bind noUb_offsetToEnd fun _ => .ite (.ret _) (.bind (noUb_read_int _ _) fun _ => ?_)
    refine .ite (.bind ?_ fun _ => ih _ _) (.ite (.bind ?_ fun _ => ih _ _) (.ite (.bind ?_ fun _ => ih _ _)
      (.ite (.bind ?_ fun _ => ih _ _) (.ret _))))
    · noub [ESFields.readData]
    · noub [DecConfigFields.readData]
    · noub [readInfo]
    · noub [readInfo]
theorem noUb_Esds (g : ESJunk) : NoUb (Esds.readData g) :=
  .bind noUb_fullBox fun _ => .bind noUb_offsetToEnd fun _ => noUb_EsdsGo g _ _ _ _

theorem noUb_box (env : Env) (t : BoxType) (wave : Bool) (k : Kind) : NoUb (BoxData.readData env t wave k) := by
  cases k <;> rw [BoxData.readData]
  all_goals first
    | exact .ret _
    | exact .bind (by first
        | with_reducible exact noUb_Btrt
        | with_reducible exact noUb_Pasp
        | with_reducible exact noUb_Fiel
        | with_reducible exact noUb_Smhd
        | with_reducible exact noUb_Vmhd
        | with_reducible exact noUb_Mfhd
        | with_reducible exact noUb_Mfro
        | with_reducible exact noUb_Dref
        | with_reducible exact noUb_Stsd
        | with_reducible exact noUb_Trex
        | with_reducible exact noUb_Iods
        | with_reducible exact noUb_Mvhd
        | with_reducible exact noUb_Tkhd
        | with_reducible exact noUb_Mdhd
        | with_reducible exact noUb_Mehd
        | with_reducible exact noUb_Tfdt
        | with_reducible exact noUb_Data
        | with_reducible exact noUb_Ftyp
        | with_reducible exact noUb_Meta
        | with_reducible exact noUb_Opaque
        | with_reducible exact noUb_Av1C
        | with_reducible exact noUb_VpcC
        | with_reducible exact noUb_DOps
        | with_reducible exact noUb_Stco
        | with_reducible exact noUb_Co64
        | with_reducible exact noUb_Stss
        | with_reducible exact noUb_Stsz
        | with_reducible exact noUb_Hdlr
        | with_reducible exact noUb_Emsg
        | with_reducible exact noUb_Stts
        | with_reducible exact noUb_Ctts
        | with_reducible exact noUb_Stsc
        | with_reducible exact noUb_Sdtp
        | with_reducible exact noUb_Sidx
        | with_reducible exact noUb_Tfra
        | with_reducible exact noUb_Elst
        | with_reducible exact noUb_Url _
        | with_reducible exact noUb_Urn _
        | with_reducible exact noUb_Colr _
        | with_reducible exact noUb_Tfhd _
        | with_reducible exact noUb_Pssh _
        | with_reducible exact noUb_VisualSampleEntry _
        | with_reducible exact noUb_AudioSampleEntry _
        | with_reducible exact noUb_Sbgp _
        | with_reducible exact noUb_Trun _
        | with_reducible exact noUb_AvcC _
        | with_reducible exact noUb_Sgpd _
        | with_reducible exact noUb_Esds _
      ) fun _ => .ret _

end Mp4
