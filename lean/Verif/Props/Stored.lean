import Verif.Spec.Stored
import Verif.Props.ReadBack
import Verif.Model.Writer

/-! # C61: every class, every tree -/

namespace Mp4

theorem stored_sbgp (b : Sbgp) (old : BitVec 32) (h : b.entries.length < 2 ^ 32) :
    RoundTrip b.writeData (Sbgp.readData old)
      { b with grouping_type_parameter := if b.version = 0#8 then old else b.grouping_type_parameter } := by
  refine roundTrip_of (Sbgp.write_eq b) (Sbgp.size_eq b) (fun d rest => ?_)
  rw [Sbgp.read_eq b old d rest h]

theorem decodesTo_stored (env : Env) (t : BoxType) (wave : Bool) (leaf : Prop) (h : Option BoxHeader) (d : BoxData)
    (hs : d.Survives env t wave leaf) : Tree.DecodesTo env wave ⟨t, d, h⟩ leaf (d.stored env t) := by
  cases d with
  | btrt b => exact .inl ((C16_btrt b).wrap BoxData.btrt)
  | pasp b => exact .inl ((C16_pasp b).wrap BoxData.pasp)
  | fiel b => exact .inl ((C16_fiel b).wrap BoxData.fiel)
  | smhd b => exact .inl ((C16_smhd b).wrap BoxData.smhd)
  | vmhd b => exact .inl ((C16_vmhd b).wrap BoxData.vmhd)
  | mfhd b => exact .inl ((C16_mfhd b).wrap BoxData.mfhd)
  | mfro b => exact .inl ((C16_mfro b).wrap BoxData.mfro)
  | dref b => exact .inl ((C16_dref b).wrap BoxData.dref)
  | stsd b => exact .inl ((C16_stsd b).wrap BoxData.stsd)
  | trex b => exact .inl ((C16_trex b).wrap BoxData.trex)
  | iods b => exact .inl ((C16_iods_seven b hs).wrap BoxData.iods)
  | mvhd b => exact .inl ((C18_mvhd b).wrap BoxData.mvhd)
  | tkhd b => exact .inl ((C18_tkhd b).wrap BoxData.tkhd)
  | mdhd b => exact .inl ((C18_mdhd b hs).wrap BoxData.mdhd)
  | mehd b => exact .inl ((C18_mehd b).wrap BoxData.mehd)
  | tfdt b => exact .inl ((C18_tfdt b).wrap BoxData.tfdt)
  | elst b => exact .inl ((C18_elst b hs).wrap BoxData.elst)
  | sidx b => exact .inl ((C18_sidx b hs.1 hs.2).wrap BoxData.sidx)
  | stts b => exact .inl ((C19_stts b hs).wrap BoxData.stts)
  | ctts b => exact .inl ((C19_ctts b hs.1 hs.2).wrap BoxData.ctts)
  | stsc b => exact .inl ((C19_stsc b hs).wrap BoxData.stsc)
  | stco b => exact .inl ((C19_stco b hs).wrap BoxData.stco)
  | co64 b => exact .inl ((C19_co64 b hs).wrap BoxData.co64)
  | stss b => exact .inl ((C19_stss b hs).wrap BoxData.stss)
  | stsz b =>
    left
    simp only [BoxData.stored]
    by_cases h0 : b.sample_size = 0
    · rw [if_pos h0]; exact (C19_stsz b (hs h0) h0).wrap BoxData.stsz
    · rw [if_neg h0]; exact (C54_stsz_constant b h0).wrap BoxData.stsz
  | sdtp b => exact .inr ⟨hs.1, (C19_sdtp b hs.2).wrap BoxData.sdtp⟩
  | sbgp b => exact .inl ((stored_sbgp b env.sbgp hs).wrap BoxData.sbgp)
  | tfhd b => exact .inl ((C20_tfhd_fields b env.tfhd).wrap BoxData.tfhd)
  | trun b => exact .inl ((roundTrip_of (Trun.write_eq b) (Trun.size_eq b)
      (fun d rest => Trun.read_eq b env.trun d rest hs.1 hs.2)).wrap BoxData.trun)
  | tfra b => exact .inl ((C20_tfra b hs.1 hs.2.1 hs.2.2.1 hs.2.2.2).wrap BoxData.tfra)
  | avcC b =>
    obtain ⟨hl, h1, h2, h3, h4⟩ := hs
    by_cases hh : b.high_profile_fields_enabled = true
    · obtain ⟨k1, k2, k3⟩ := h4 hh
      left
      simp only [BoxData.stored, if_pos hh]
      exact (C22_avcC_high b env.avcC hh k1 h1 h2 h3 k2 k3).wrap BoxData.avcC
    · refine .inr ⟨hl, ?_⟩
      simp only [BoxData.stored, if_neg hh]
      have hh : b.high_profile_fields_enabled = false := by simpa using hh
      exact (C22_avcC_base b env.avcC hh h1 h2 h3).wrap BoxData.avcC
  | av1C b => exact .inr ⟨hs.1, (C22_av1C b hs.2).wrap BoxData.av1C⟩
  | vpcC b => exact .inl ((C22_vpcC b hs.1 hs.2.1 hs.2.2).wrap BoxData.vpcC)
  | dOps b => exact .inl ((C22_dOps b hs.1 hs.2).wrap BoxData.dOps)
  | visual b =>
    left
    have : b.type = t := hs
    subst this
    exact (C21_visual b).wrap BoxData.visual
  | audio b =>
    left
    obtain ⟨ht, hw, hc⟩ := hs
    have hw : wave = false := by simpa using hw
    subst hw
    simp only [BoxData.stored]
    rcases hc with ⟨hq, hv⟩ | ⟨hq, hv, hl⟩
    · have := roundTrip_of (AudioSampleEntry.write_eq b) (AudioSampleEntry.size_eq b)
        (AudioSampleEntry.read_plain b { env.audio with type := t, under_wave := false } rfl hq hv)
      simp only [hq, Bool.false_eq_true, ↓reduceIte]
      exact this.wrap BoxData.audio
    · have := roundTrip_of (AudioSampleEntry.write_eq b) (AudioSampleEntry.size_eq b)
        (AudioSampleEntry.read_qt b { env.audio with type := t, under_wave := false } rfl hq hv hl)
      rw [if_pos hq]
      exact this.wrap BoxData.audio
  | hdlr b => exact .inr ⟨hs.1, (C23_hdlr b hs.2.1 hs.2.2.1 hs.2.2.2).wrap BoxData.hdlr⟩
  | url b => exact .inl ((roundTrip_of (Url.write_eq b) (Url.size_eq b) (Url.read_eq b env.url hs)).wrap BoxData.url)
  | urn b => exact .inl ((roundTrip_of (Urn.write_eq b) (Urn.size_eq b) (Urn.read_eq b env.urn hs.1 hs.2)).wrap BoxData.urn)
  | emsg b => exact .inr ⟨hs.1, (C23_emsg b hs.2.1 hs.2.2.1 hs.2.2.2).wrap BoxData.emsg⟩
  | data b => exact .inr ⟨hs, (C23_data b).wrap BoxData.data⟩
  | colr b => exact .inr ⟨hs.1, (roundTripEnd_of (Colr.write_eq b) (Colr.size_eq b) (Colr.read_eq b env.colr hs.2)).wrap BoxData.colr⟩
  | pssh b => exact .inl ((roundTrip_of (Pssh.write_eq b) (Pssh.size_eq b) (Pssh.read_eq b env.pssh hs.1 hs.2)).wrap BoxData.pssh)
  | ftyp b => exact .inr ⟨hs, (C23_ftyp b).wrap BoxData.ftyp⟩
  | metaBox b => exact .inl ((C23_meta b).wrap BoxData.metaBox)
  | opaq b => exact .inr ⟨hs, (C27_opaque b).1.wrap BoxData.opaq⟩
  | esds b => exact .inr ⟨hs.1, (C24_esds_nested b env.esds (fun x m => (hs.2 x m).1) (fun x m => (hs.2 x m).2)).wrap BoxData.esds⟩
  | sgpd b => exact .inl ((C26_sgpd b env.sgpd hs).wrap BoxData.sgpd)
  | empty => exact .inl (C16_containers env t wave)

theorem decodesTo_ok {env : Env} {wave : Bool} {b : Box} {leaf : Prop} {d : BoxData} (h : Tree.DecodesTo env wave b leaf d) :
    ∃ n, b.data.writeData.res = .ok n := by
  rcases h with h | h
  · exact ⟨_, h.1⟩
  · exact ⟨_, h.2.1⟩

mutual
theorem readsAs_readBack (sr : SimpleReader) : ∀ (t : Tree) (path : List BoxType) (wave : Bool) (o : Nat),
    Tree.Surviving sr wave o t → Tree.ReadsAs sr path wave o t (t.readBack sr path o)
  | .node b p ls, path, wave, o, h => by
    obtain ⟨h1, h2, h3⟩ := h
    rw [Tree.readBack]
    exact ⟨h1, decodesTo_stored _ _ _ _ b.header _ h2, rfl, rfl, rfl, readsAsList_readBack sr ls _ _ _ h3⟩
theorem readsAsList_readBack (sr : SimpleReader) : ∀ (ts : List Tree) (path : List BoxType) (wave : Bool) (o : Nat),
    Tree.SurvivingList sr wave o ts → Tree.ReadsAsList sr path wave o ts (Tree.readBackList sr path o ts)
  | [], _, _, _, _ => by rw [Tree.readBackList]; trivial
  | t :: ts, path, wave, o, h => by
    rw [Tree.readBackList]
    exact ⟨readsAs_readBack sr t path wave o h.1, readsAsList_readBack sr ts path wave _ h.2⟩
end

mutual
theorem surviving_writable (sr : SimpleReader) : ∀ (t : Tree) (wave : Bool) (o : Nat), Tree.Surviving sr wave o t →
    t.All fun b => (∃ n, b.data.writeData.res = .ok n) ∧ ∀ m : Mdhd, b.data = .mdhd m → LangOk m.language
  | .node b p ls, wave, o, h => by
    obtain ⟨h1, h2, h3⟩ := h
    refine ⟨⟨decodesTo_ok (decodesTo_stored _ b.type _ _ b.header _ h2), ?_⟩, survivingList_writable sr ls _ _ h3⟩
    intro m hm
    rw [hm] at h2
    exact h2
theorem survivingList_writable (sr : SimpleReader) : ∀ (ts : List Tree) (wave : Bool) (o : Nat), Tree.SurvivingList sr wave o ts →
    Tree.AllList (fun b => (∃ n, b.data.writeData.res = .ok n) ∧ ∀ m : Mdhd, b.data = .mdhd m → LangOk m.language) ts
  | [], _, _, _ => trivial
  | t :: ts, wave, o, h => ⟨surviving_writable sr t wave o h.1, survivingList_writable sr ts wave _ h.2⟩
end

/-- **C61.** For every file made of boxes of any registered classes and of boxes of other types, nested in any way, whose fields fit
their classes: reading it returns exactly the same forest: same types (`unsu` for a type that is not registered), nesting, order and
paths, the offsets and sizes at which the boxes lie, and every field as written, except the losses `BoxData.stored` lists
(times in version 0, members not in the file). -/
theorem C61_any_forest (sr : SimpleReader) (ts : List Tree) (hd : sr.data = Tree.encodeList ts)
    (hl : Tree.totalList ts < 2 ^ 63) (hs : Tree.SurvivingList sr false 0 ts) :
    sr.read = some ⟨Tree.headersList (Tree.readBackList sr [] 0 ts), .ok (Tree.readBackList sr [] 0 ts)⟩ :=
  C31_read_back sr ts _ hd hl (survivingList_writable sr ts false 0 hs) (readsAsList_readBack sr ts [] false 0 hs)

mutual
theorem surviving_data (file : Bool) (env : Nat → Env) (d d' : List Byte) : ∀ (t : Tree) (wave : Bool) (o : Nat),
    Tree.Surviving { file, env, data := d } wave o t → Tree.Surviving { file, env, data := d' } wave o t
  | .node b p ls, wave, o, h => ⟨h.1, h.2.1, survivingList_data file env d d' ls _ _ h.2.2⟩
theorem survivingList_data (file : Bool) (env : Nat → Env) (d d' : List Byte) : ∀ (ts : List Tree) (wave : Bool) (o : Nat),
    Tree.SurvivingList { file, env, data := d } wave o ts → Tree.SurvivingList { file, env, data := d' } wave o ts
  | [], _, _, _ => trivial
  | t :: ts, wave, o, h => ⟨surviving_data file env d d' t wave o h.1, survivingList_data file env d d' ts wave _ h.2⟩
end

mutual
theorem headers_readBack (sr : SimpleReader) : ∀ (t : Tree) (path : List BoxType) (o : Nat),
    (t.readBack sr path o).headers = (t.place o).headers
  | .node b p ls, path, o => by
    rw [Tree.readBack, Tree.place, Tree.headers, Tree.headers, headersList_readBack]
theorem headersList_readBack (sr : SimpleReader) : ∀ (ts : List Tree) (path : List BoxType) (o : Nat),
    Tree.headersList (Tree.readBackList sr path o ts) = Tree.headersList (Tree.placeList ts o)
  | [], _, _ => by rw [Tree.readBackList, Tree.placeList]
  | t :: ts, path, o => by
    rw [Tree.readBackList, Tree.placeList, Tree.headersList, Tree.headersList, headers_readBack, headersList_readBack]
end

/-- **C61.** Laid out with `adjustOffsetAndSize(0)`, written with `BoxInfo::write` to an empty file and read with `SimpleReader`, a tree
of fitting boxes comes back as `readBack` says. -/
theorem C61_write_then_read (t : Tree) (file : Bool) (env : Nat → Env) (ha : t.All Box.OwnHeader) (hl : t.total < 2 ^ 63)
    (hs : Tree.Surviving { file, env, data := [] } false 0 t) :
    ∃ t' os', t.adjustOffsetAndSize 0 = some (t.total, t') ∧ t'.write ⟨[], 0⟩ = (.ok (), t', os') ∧
      ({ file, env, data := os'.data } : SimpleReader).read = some ⟨t'.headers, .ok [t.readBack { file, env, data := os'.data } [] 0]⟩ := by
  obtain ⟨t', os', h1, h2, h3, h4, h5, h6⟩ := C13_serialization t 0 ⟨[], 0⟩ ha (by omega) (surviving_writable _ t _ _ hs)
  have hp := C12_layout t 0 ha (by omega)
  rw [h1] at hp
  simp only [Option.some.injEq, Prod.mk.injEq, true_and] at hp
  have hdata : os'.data = t.encode := by
    have := OStream.write_end [] t.encode
    rw [h3]
    show ((OStream.mk [] 0).write t.encode).data = _
    rw [show (0 : Nat) = ([] : List Byte).length from rfl, this]
    simp
  refine ⟨t', os', h1, h2, ?_⟩
  have hlist : t.encode = Tree.encodeList [t] := by rw [Tree.encodeList, Tree.encodeList, List.append_nil]
  have hs' : Tree.Surviving { file, env, data := os'.data } false 0 t := surviving_data file env _ _ t _ _ hs
  have := C61_any_forest { file, env, data := os'.data } [t] (by rw [← hlist]; exact hdata)
    (by rw [Tree.totalList_cons, Tree.totalList]; omega) ⟨hs', trivial⟩
  rw [this, Tree.readBackList, Tree.readBackList, Tree.headersList, Tree.headersList, List.append_nil, hp, headers_readBack]

/-- `moov` with a version-0 `mvhd` whose duration does not fit 32 bits, and a `trak` with an `stsz`, a `free` box and a box of a type that is not registered. -/
def storedTree : Tree :=
  .node ⟨fourcc "moov", .empty, none⟩ []
    [.node ⟨fourcc "mvhd", .mvhd (newMvhd 5 1000 0x100000007 2), none⟩ [] [],
     .node ⟨fourcc "trak", .empty, none⟩ []
       [.node ⟨fourcc "stsz", .stsz ⟨⟨0, 0, 0, 0⟩, 0, [10, 20, 30]⟩, none⟩ [] [],
        .node ⟨fourcc "free", .opaq ⟨[1, 2, 3]⟩, none⟩ [] [],
        .node ⟨fourcc "abcd", .opaq ⟨[4, 5]⟩, none⟩ [] []]]

theorem storedTree_surviving (file : Bool) (env : Nat → Env) : Tree.Surviving { file, env, data := [] } false 0 storedTree := by
  refine ⟨.inl ⟨⟨.empty, []⟩, by
      show stdBoxMap.find _ = _
      decide +kernel, rfl⟩, trivial,
    ⟨.inl ⟨⟨.mvhd, [0#8, 1#8]⟩, by
      show stdBoxMap.find _ = _
      decide +kernel, rfl⟩, trivial, trivial⟩,
    ⟨.inl ⟨⟨.empty, []⟩, by
      show stdBoxMap.find _ = _
      decide +kernel, rfl⟩, trivial,
      ⟨.inl ⟨⟨.stsz, [0#8]⟩, by
      show stdBoxMap.find _ = _
      decide +kernel, rfl⟩, fun _ => by decide, trivial⟩,
      ⟨.inl ⟨⟨.opaq, []⟩, by
      show stdBoxMap.find _ = _
      decide +kernel, rfl⟩, rfl, trivial⟩,
      ⟨.inr ⟨by
      show stdBoxMap.find _ = _
      decide +kernel, rfl⟩, rfl, trivial⟩, trivial⟩, trivial⟩

/-- `C61` is not vacuous, and its exceptions happen: the tree above comes back with the duration reduced to 32 bits and everything
else unchanged. -/
example (file : Bool) (env : Nat → Env) :
    ∃ t' os', storedTree.adjustOffsetAndSize 0 = some (storedTree.total, t') ∧ t'.write ⟨[], 0⟩ = (.ok (), t', os') ∧
      ({ file, env, data := os'.data } : SimpleReader).read = some ⟨t'.headers, .ok [storedTree.readBack { file, env, data := os'.data } [] 0]⟩ ∧
      ∃ m, ((storedTree.readBack { file, env, data := os'.data } [] 0).leafs.map (·.box.data))[0]? = some (.mvhd m) ∧
        m.duration = 7 ∧ m.timescale = 1000 ∧ m.creation_time = 5 := by
  have ht : storedTree.total = 177 := by decide +kernel
  obtain ⟨t', os', h1, h2, h3⟩ := C61_write_then_read storedTree file env
    ⟨fun _ h => (by cases h), ⟨fun _ h => (by cases h), trivial⟩, ⟨fun _ h => (by cases h),
      ⟨fun _ h => (by cases h), trivial⟩, ⟨fun _ h => (by cases h), trivial⟩, ⟨fun _ h => (by cases h), trivial⟩, trivial⟩, trivial⟩
    (by rw [ht]; decide) (storedTree_surviving file env)
  refine ⟨t', os', h1, h2, h3, _, rfl, ?_, ?_, ?_⟩ <;> decide +kernel

end Mp4
