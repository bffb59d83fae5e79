import Verif.Lemmas.ReadsStr
import Verif.Spec.Rewrite

/-! # Rewriting a box that was read -/

namespace Mp4
open R
variable {α : Type}

theorem Reads.box {p : R (Nat × α)} {enc : α → List Bool} {P : α → Prop} (h : Reads p enc P) (C : α → BoxData)
    (hC : ∀ a, Layout.box (C a) = enc a) (hP : ∀ a, P a → (C a).Writable ∧ (C a).LanguageOk) :
    Reads (p.bind fun x => .ret (x.1, C x.2)) Layout.box fun b => b.Writable ∧ b.LanguageOk :=
  ReadsFrom.start (ReadsFrom.bind h fun _ a ha => ReadsFrom.ret ⟨by rw [hC]; rfl, hP a ha⟩)

/-- Reading consumes exactly the file format of the box that it returns. -/
theorem BoxData.reads (env : Env) (t : BoxType) (wave : Bool) (k : Kind) (hk : k.oneForm wave = true) :
    Reads (BoxData.readData env t wave k) Layout.box fun b => b.Writable ∧ b.LanguageOk := by
  cases k with
  | url | urn | emsg | hdlr | iods | esds | stsz | metaBox => cases hk
  | audio => exact (AudioSampleEntry.reads _ (by simpa [Kind.oneForm] using hk)).box _ (fun _ => rfl) fun _ _ => ⟨trivial, trivial⟩
  | mdhd => exact Mdhd.reads.box _ (fun _ => rfl) fun _ h => ⟨trivial, h⟩
  | tfra => exact Tfra.reads.box _ (fun _ => rfl) fun _ h => ⟨Or.inr h, trivial⟩
  | avcC => exact (AvcC.reads _).box _ (fun _ => rfl) fun _ h => ⟨h, trivial⟩
  | empty => exact ReadsFrom.start (ReadsFrom.ret ⟨rfl, trivial, trivial⟩)
  | btrt => exact Btrt.reads.box _ (fun _ => rfl) fun _ _ => ⟨trivial, trivial⟩
  | pasp => exact Pasp.reads.box _ (fun _ => rfl) fun _ _ => ⟨trivial, trivial⟩
  | fiel => exact Fiel.reads.box _ (fun _ => rfl) fun _ _ => ⟨trivial, trivial⟩
  | smhd => exact Smhd.reads.box _ (fun _ => rfl) fun _ _ => ⟨trivial, trivial⟩
  | vmhd => exact Vmhd.reads.box _ (fun _ => rfl) fun _ _ => ⟨trivial, trivial⟩
  | mfhd => exact Mfhd.reads.box _ (fun _ => rfl) fun _ _ => ⟨trivial, trivial⟩
  | mfro => exact Mfro.reads.box _ (fun _ => rfl) fun _ _ => ⟨trivial, trivial⟩
  | dref => exact Dref.reads.box _ (fun _ => rfl) fun _ _ => ⟨trivial, trivial⟩
  | stsd => exact Stsd.reads.box _ (fun _ => rfl) fun _ _ => ⟨trivial, trivial⟩
  | trex => exact Trex.reads.box _ (fun _ => rfl) fun _ _ => ⟨trivial, trivial⟩
  | mvhd => exact Mvhd.reads.box _ (fun _ => rfl) fun _ _ => ⟨trivial, trivial⟩
  | tkhd => exact Tkhd.reads.box _ (fun _ => rfl) fun _ _ => ⟨trivial, trivial⟩
  | mehd => exact Mehd.reads.box _ (fun _ => rfl) fun _ _ => ⟨trivial, trivial⟩
  | tfdt => exact Tfdt.reads.box _ (fun _ => rfl) fun _ _ => ⟨trivial, trivial⟩
  | elst => exact Elst.reads.box _ (fun _ => rfl) fun _ _ => ⟨trivial, trivial⟩
  | sidx => exact Sidx.reads.box _ (fun _ => rfl) fun _ _ => ⟨trivial, trivial⟩
  | stts => exact Stts.reads.box _ (fun _ => rfl) fun _ _ => ⟨trivial, trivial⟩
  | ctts => exact Ctts.reads.box _ (fun _ => rfl) fun _ _ => ⟨trivial, trivial⟩
  | stsc => exact Stsc.reads.box _ (fun _ => rfl) fun _ _ => ⟨trivial, trivial⟩
  | stco => exact Stco.reads.box _ (fun _ => rfl) fun _ _ => ⟨trivial, trivial⟩
  | co64 => exact Co64.reads.box _ (fun _ => rfl) fun _ _ => ⟨trivial, trivial⟩
  | stss => exact Stss.reads.box _ (fun _ => rfl) fun _ _ => ⟨trivial, trivial⟩
  | sdtp => exact Sdtp.reads.box _ (fun _ => rfl) fun _ _ => ⟨trivial, trivial⟩
  | sbgp => exact (Sbgp.reads _).box _ (fun _ => rfl) fun _ _ => ⟨trivial, trivial⟩
  | tfhd => exact (Tfhd.reads _).box _ (fun _ => rfl) fun _ _ => ⟨trivial, trivial⟩
  | trun => exact (Trun.reads _).box _ (fun _ => rfl) fun _ _ => ⟨trivial, trivial⟩
  | av1C => exact Av1C.reads.box _ (fun _ => rfl) fun _ _ => ⟨trivial, trivial⟩
  | vpcC => exact VpcC.reads.box _ (fun _ => rfl) fun _ _ => ⟨trivial, trivial⟩
  | dOps => exact DOps.reads.box _ (fun _ => rfl) fun _ _ => ⟨trivial, trivial⟩
  | visual => exact (VisualSampleEntry.reads _).box _ (fun _ => rfl) fun _ _ => ⟨trivial, trivial⟩
  | data => exact Data.reads.box _ (fun _ => rfl) fun _ _ => ⟨trivial, trivial⟩
  | colr => exact (Colr.reads _).box _ (fun _ => rfl) fun _ _ => ⟨trivial, trivial⟩
  | pssh => exact (Pssh.reads _).box _ (fun _ => rfl) fun _ _ => ⟨trivial, trivial⟩
  | ftyp => exact Ftyp.reads.box _ (fun _ => rfl) fun _ _ => ⟨trivial, trivial⟩
  | opaq => exact Opaque.reads.box _ (fun _ => rfl) fun _ _ => ⟨trivial, trivial⟩
  | sgpd => exact (Sgpd.reads _).box _ (fun _ => rfl) fun _ _ => ⟨trivial, trivial⟩

theorem box_inv {p : R (Nat × α)} {C : α → BoxData} {d : List Byte} {s s' : List Bool} {n : Nat} {b : BoxData}
    (h : (p.bind fun x => .ret (x.1, C x.2)).run d s = .ok ((n, b), s')) :
    ∃ a, b = C a ∧ p.run d s = .ok ((n, a), s') := by
  rw [run_bind] at h
  cases h1 : p.run d s with
  | error e => rw [h1] at h; cases h
  | ok x =>
    obtain ⟨⟨k, a⟩, s1⟩ := x
    rw [h1] at h
    cases h
    exact ⟨a, rfl, rfl⟩

/-- The class of the box read is the class asked for. -/
theorem BoxData.readData_kind {env : Env} {t : BoxType} {wave : Bool} {k : Kind} {d : List Byte} {s s' : List Bool} {n : Nat}
    {b : BoxData} (h : (BoxData.readData env t wave k).run d s = .ok ((n, b), s')) : b.kind = k := by
  cases k with
  | empty => cases h; rfl
  | _ => obtain ⟨a, rfl, -⟩ := box_inv h; rfl

/-- Below `wave` only the raw bytes are read. -/
theorem AudioSampleEntry.read_below_wave (old : AudioSampleEntry) (hw : old.under_wave = true) :
    ∀ d s n a s', (AudioSampleEntry.readData old).run d s = .ok ((n, a), s') →
      a.under_wave = true ∧ a.is_quick_time_compatible = old.is_quick_time_compatible ∧
      s = a.quick_time_data.flatMap bits ++ s' := by
  intro d s n a s' h
  rw [AudioSampleEntry.readData, if_pos hw] at h
  simp only [bind_eq, pure_eq] at h
  have h : ((read_vector_uint 8 _).bind fun x => .ret (x.1, { old with quick_time_data := x.2 })).run d s = _ := h
  rw [run_bind] at h
  cases h1 : (read_vector_uint 8 (s.length / 8)).run d s with
  | error e => rw [h1] at h; cases h
  | ok x =>
    obtain ⟨⟨k, v⟩, s1⟩ := x
    rw [h1] at h
    cases h
    exact ⟨hw, rfl, (reads_vector 8 _ (by decide) d s _ v _ h1).1⟩

theorem BoxData.reads_length {env : Env} {t : BoxType} {wave : Bool} {k : Kind} {d : List Byte} {s s' : List Bool} {n : Nat}
    {b : BoxData} (h : (BoxData.readData env t wave k).run d s = .ok ((n, b), s')) (hd : b.LengthDetermines)
    (hl : s.length = (Layout.box b).length + s'.length) : s = Layout.box b ++ s' := by
  have hgen : k.oneForm wave = true → s = Layout.box b ++ s' := fun hk => (BoxData.reads env t wave k hk d s n b s' h).1
  cases k with
  | url => obtain ⟨a, rfl, h'⟩ := box_inv h; exact (Url.reads _ d s n a s' h' trivial).2 hl
  | urn => obtain ⟨a, rfl, h'⟩ := box_inv h; exact (Urn.reads _ d s n a s' h' trivial).2 hl
  | emsg => obtain ⟨a, rfl, h'⟩ := box_inv h; exact (Emsg.reads d s n a s' h' trivial).2 hl
  | hdlr => obtain ⟨a, rfl, h'⟩ := box_inv h; exact (Hdlr.reads d s n a s' h' hd).2 hl
  | stsz => obtain ⟨a, rfl, h'⟩ := box_inv h; exact (Stsz.reads d s n a s' h' hd).2 hl
  | iods => obtain ⟨a, rfl, h'⟩ := box_inv h; exact Iods.reads_four h' hl
  | esds => obtain ⟨a, rfl, h'⟩ := box_inv h; exact hd.elim
  | metaBox => obtain ⟨a, rfl, h'⟩ := box_inv h; exact hd.elim
  | audio =>
    obtain ⟨a, rfl, h'⟩ := box_inv h
    cases wave with
    | false => exact hgen rfl
    | true =>
      have := (AudioSampleEntry.read_below_wave _ rfl d s n a s' h').1
      rw [BoxData.LengthDetermines, this] at hd
      cases hd
  | _ => exact hgen rfl

theorem ESFields.read_url (g : ESJunk) : Ensures (ESFields.readData g) fun x => x.2.UrlOk := by
  rw [ESFields.readData]
  simp only [bind_eq, pure_eq]
  refine Ensures.bind (Ensures.any _) fun _ _ => ?_
  refine Ensures.bind (Ensures.any _) fun _ _ => ?_
  refine Ensures.bind (Ensures.any _) fun _ _ => ?_
  refine Ensures.bind (Ensures.any _) fun x3 _ => ?_
  refine Ensures.bind (Ensures.any _) fun _ _ => ?_
  refine Ensures.bind (Ensures.any _) fun _ _ => ?_
  refine Ensures.bind (Ensures.any _) fun _ _ => ?_
  refine Ensures.bind (P := fun x => x.2.length ≤ 255) ?_ fun _ hu => ?_
  · intro d s x s' h
    have hr := reads_opt (p := (read_uint 8).bind fun x => (read_vector_uint 8 x.2.toNat).bind fun y => .ret (x.1 + y.1, y.2))
      (e := fun l => cbits 8 l.length ++ l.flatMap bits) (P := fun l => l.length ≤ 255) (by
        refine ReadsFrom.start ?_
        refine ReadsFrom.bind (reads_uint 8 (by decide)) fun _ n _ => ?_
        refine ReadsFrom.bind (reads_vector 8 _ (by decide)) fun _ l hl => ?_
        have := n.isLt
        exact ReadsFrom.ret ⟨by rw [hl]; rfl, by show l.length ≤ 255; dsimp only at hl; omega⟩) x3.2 []
    have := (hr d s x.1 x.2 s' h).2
    split at this
    · exact this
    · rw [this]; simp
  · refine Ensures.bind (Ensures.any _) fun _ _ => ?_
    exact Ensures.ret fun _ => hu

theorem Esds.readGo_url (g : ESJunk) (fb : FullBox) (fuel rb : Nat) (acc : List Descriptor) (ha : ∀ d ∈ acc, d.UrlOk) :
    Ensures (Esds.readGo g fb fuel rb acc) fun x => ∀ d ∈ x.2.descriptors, d.UrlOk := by
  induction fuel generalizing rb acc with
  | zero => exact Ensures.ret ha
  | succ fuel ih =>
    have hadd : ∀ p : Descriptor, p.UrlOk → ∀ d ∈ acc ++ [p], d.UrlOk := by
      intro p hp d hd
      rcases List.mem_append.1 hd with hd | hd
      · exact ha d hd
      · rw [List.mem_singleton.1 hd]; exact hp
    rw [Esds.readGo]
    simp only [bind_eq, pure_eq]
    refine Ensures.bind (Ensures.any _) fun _ _ => ?_
    split
    · exact Ensures.ret ha
    · refine Ensures.bind (Ensures.any _) fun x _ => ?_
      split
      · exact Ensures.bind (ESFields.read_url g) fun x hx => ih _ _ (hadd _ hx)
      · split
        · refine Ensures.bind (P := fun x => x.2.UrlOk) ?_ fun x hx => ih _ _ (hadd _ hx)
          rw [DecConfigFields.readData]
          simp only [bind_eq, pure_eq]
          iterate 8 refine Ensures.bind (Ensures.any _) fun _ _ => ?_
          exact Ensures.ret trivial
        · split
          · refine Ensures.bind (P := fun x => x.2.UrlOk) ?_ fun x hx => ih _ _ (hadd _ hx)
            rw [readInfo]
            simp only [bind_eq, pure_eq]
            iterate 2 refine Ensures.bind (Ensures.any _) fun _ _ => ?_
            exact Ensures.ret trivial
          · split
            · refine Ensures.bind (P := fun x => x.2.UrlOk) ?_ fun x hx => ih _ _ (hadd _ hx)
              rw [readInfo]
              simp only [bind_eq, pure_eq]
              iterate 2 refine Ensures.bind (Ensures.any _) fun _ _ => ?_
              exact Ensures.ret trivial
            · exact Ensures.ret ha

/-- What was read can be written. -/
theorem BoxData.reads_ok {env : Env} {t : BoxType} {wave : Bool} {k : Kind} {d : List Byte} {s s' : List Bool} {n : Nat}
    {b : BoxData} (h : (BoxData.readData env t wave k).run d s = .ok ((n, b), s')) : b.Writable ∧ b.LanguageOk := by
  have hgen : k.oneForm wave = true → b.Writable ∧ b.LanguageOk := fun hk => (BoxData.reads env t wave k hk d s n b s' h).2
  cases k with
  | esds =>
    obtain ⟨a, rfl, h'⟩ := box_inv h
    have he : Ensures (Esds.readData env.esds) fun x => ∀ d ∈ x.2.descriptors, d.UrlOk := by
      rw [Esds.readData]
      simp only [bind_eq]
      refine Ensures.bind (Ensures.any _) fun x _ => ?_
      exact Ensures.bind (Ensures.any _) fun _ _ => Esds.readGo_url _ _ _ _ _ (by simp)
    exact ⟨he d s _ _ h', trivial⟩
  | url | urn | emsg | hdlr | iods | stsz | metaBox | audio =>
    obtain ⟨a, rfl, -⟩ := box_inv h
    exact ⟨trivial, trivial⟩
  | _ => exact hgen rfl

end Mp4
