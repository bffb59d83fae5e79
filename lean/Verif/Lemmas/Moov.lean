import Verif.Lemmas.Session
import Verif.Props.Tree
import Verif.Props.BoxSizes

namespace Mp4

/-- Content that `writeData` does not refuse. -/
def GoodData : BoxData → Prop
  | .tfra _ => False
  | .esds e => ∀ f subs, Descriptor.es f subs ∈ e.descriptors → f.url_flag = false
  | .avcC a => a.high_profile_fields_enabled = false
  | .mdhd m => LangOk m.language
  | _ => True

/-- A new box with such content. -/
def Good (b : Box) : Prop := b.header = none ∧ GoodData b.data

theorem GoodData.ok {d : BoxData} (h : GoodData d) :
    (∃ n, d.writeData.res = .ok n) ∧ ∀ m : Mdhd, d = .mdhd m → LangOk m.language := by
  refine ⟨?_, ?_⟩
  · cases hr : d.writeData.res with
    | ok n => exact ⟨n, rfl⟩
    | error e =>
      exfalso
      rcases (C14_throws_iff d).mp ⟨e, hr⟩ with ⟨t, rfl, -⟩ | ⟨t, rfl, f, subs, hm, hu, -⟩ | ⟨t, rfl, hh, -⟩
      · exact h
      · have := h f subs hm; rw [this] at hu; cases hu
      · rw [GoodData] at h; rw [h] at hh; cases hh
  · rintro m rfl
    exact h

theorem mkInfo_all (P : Box → Prop) (ty : BoxType) (d : BoxData) (cs : List Mk) (p : List BoxType) :
    (mkInfo ty d cs p).All P ↔ P { type := ty, data := d } ∧ Tree.AllList P (cs.map (· (p ++ [ty]))) := Iff.rfl

theorem stsd_good (c : Codec) (id ts : BitVec 32) (p : List BoxType) : (c.stsd id ts p).All Good := by
  cases c <;>
    simp [Codec.stsd, mkInfo_all, Tree.AllList, Good, GoodData, Codec.avcC, Codec.aacDescriptors, Codec.mp3Descriptors,
      Codec.esFields]

theorem offsets_good (t : Track) (p : List BoxType) : (t.offsets p).All Good := by
  unfold Track.offsets make_offset_box
  simp only [mkInfo_all, List.map_nil, Tree.AllList, and_true]
  refine ⟨rfl, ?_⟩
  dsimp only
  cases t.chunk_infos.getLast? with
  | none => trivial
  | some l => dsimp only; split <;> trivial

theorem mediaHeader_good (t : Track) (p : List BoxType) : (t.mediaHeader p).All Good := by
  unfold Track.mediaHeader
  cases t.codec.handler <;> simp [mkInfo_all, Tree.AllList, Good, GoodData]

theorem stbl_good (t : Track) (p : List BoxType) : Tree.AllList Good (t.stblChildren.map (· p)) := by
  have h1 := stsd_good t.codec t.track_id t.timescale p
  have h2 := offsets_good t p
  unfold Track.stblChildren
  cases hc : t.codec <;> rw [hc] at h1 <;>
    simp [Tree.AllList, h1, h2, Track.stts, Track.stss, Track.stsc, Track.stsz, Track.rollGroups, mkInfo_all, Good, GoodData]

theorem trak_good (t : Track) (p : List BoxType) : (t.trak p).All Good := by
  simp only [Track.trak, mkInfo_all, List.map_cons, List.map_nil, Tree.AllList, mediaHeader_good, stbl_good, Track.dinf]
  simp only [Good, GoodData, and_true, true_and]
  show LangOk ⟨0x75, 0x6e, 0x64⟩
  unfold LangOk
  decide

theorem udta_good (p : List BoxType) : (udta p).All Good := by
  simp [udta, mkInfo_all, Tree.AllList, Good, GoodData]

/-- The `moov` tree for the given `mvhd` box and (finalized) tracks. -/
def moovTree (m : Mvhd) (tracks : List Track) : Tree :=
  .node { type := fourcc "moov", data := .empty } [fourcc "moov"]
    (.node { type := fourcc "mvhd", data := .mvhd m } [fourcc "moov", fourcc "mvhd"] [] ::
      (tracks.map (·.trak [fourcc "moov"]) ++ [udta [fourcc "moov"]]))

theorem allList_append (P : Box → Prop) (a b : List Tree) : Tree.AllList P (a ++ b) ↔ Tree.AllList P a ∧ Tree.AllList P b := by
  induction a with
  | nil => simp [Tree.AllList]
  | cons t a ih => simp [Tree.AllList, ih, and_assoc]

theorem moovTree_good (m : Mvhd) (tracks : List Track) : (moovTree m tracks).All Good := by
  unfold moovTree
  rw [Tree.All, Tree.AllList, Tree.All, allList_append]
  refine ⟨⟨rfl, trivial⟩, ⟨⟨rfl, trivial⟩, trivial⟩, ?_, udta_good _, trivial⟩
  induction tracks with
  | nil => trivial
  | cons t ts ih => exact ⟨trak_good t _, ih⟩

theorem good_own {t : Tree} (h : t.All Good) : t.All Box.OwnHeader :=
  Tree.All.mono (fun b hb => by intro x hx; rw [hb.1] at hx; cases hx) t h

theorem good_writable {t : Tree} (h : t.All Good) :
    t.All fun b => (∃ n, b.data.writeData.res = .ok n) ∧ ∀ m : Mdhd, b.data = .mdhd m → LangOk m.language :=
  Tree.All.mono (fun _ hb => hb.2.ok) t h

/-! ### Finding the tables -/

theorem fc_trak : fourcc "trak" = ⟨0x74, 0x72, 0x61, 0x6b⟩ := by decide +kernel
theorem fc_tkhd : fourcc "tkhd" = ⟨0x74, 0x6b, 0x68, 0x64⟩ := by decide +kernel
theorem fc_edts : fourcc "edts" = ⟨0x65, 0x64, 0x74, 0x73⟩ := by decide +kernel
theorem fc_mdia : fourcc "mdia" = ⟨0x6d, 0x64, 0x69, 0x61⟩ := by decide +kernel
theorem fc_mdhd : fourcc "mdhd" = ⟨0x6d, 0x64, 0x68, 0x64⟩ := by decide +kernel
theorem fc_hdlr : fourcc "hdlr" = ⟨0x68, 0x64, 0x6c, 0x72⟩ := by decide +kernel
theorem fc_minf : fourcc "minf" = ⟨0x6d, 0x69, 0x6e, 0x66⟩ := by decide +kernel
theorem fc_vmhd : fourcc "vmhd" = ⟨0x76, 0x6d, 0x68, 0x64⟩ := by decide +kernel
theorem fc_smhd : fourcc "smhd" = ⟨0x73, 0x6d, 0x68, 0x64⟩ := by decide +kernel
theorem fc_dinf : fourcc "dinf" = ⟨0x64, 0x69, 0x6e, 0x66⟩ := by decide +kernel
theorem fc_stbl : fourcc "stbl" = ⟨0x73, 0x74, 0x62, 0x6c⟩ := by decide +kernel
theorem fc_stsd : fourcc "stsd" = ⟨0x73, 0x74, 0x73, 0x64⟩ := by decide +kernel
theorem fc_stts : fourcc "stts" = ⟨0x73, 0x74, 0x74, 0x73⟩ := by decide +kernel
theorem fc_stss : fourcc "stss" = ⟨0x73, 0x74, 0x73, 0x73⟩ := by decide +kernel
theorem fc_stsc : fourcc "stsc" = ⟨0x73, 0x74, 0x73, 0x63⟩ := by decide +kernel
theorem fc_stsz : fourcc "stsz" = ⟨0x73, 0x74, 0x73, 0x7a⟩ := by decide +kernel
theorem fc_stco : fourcc "stco" = ⟨0x73, 0x74, 0x63, 0x6f⟩ := by decide +kernel
theorem fc_co64 : fourcc "co64" = ⟨0x63, 0x6f, 0x36, 0x34⟩ := by decide +kernel
theorem fc_sgpd : fourcc "sgpd" = ⟨0x73, 0x67, 0x70, 0x64⟩ := by decide +kernel
theorem fc_sbgp : fourcc "sbgp" = ⟨0x73, 0x62, 0x67, 0x70⟩ := by decide +kernel
theorem fc_udta : fourcc "udta" = ⟨0x75, 0x64, 0x74, 0x61⟩ := by decide +kernel
theorem fc_mvhd : fourcc "mvhd" = ⟨0x6d, 0x76, 0x68, 0x64⟩ := by decide +kernel

theorem mkInfo_box (ty : BoxType) (d : BoxData) (cs : List Mk) (p : List BoxType) :
    (mkInfo ty d cs p).box = { type := ty, data := d } := rfl
theorem mkInfo_leafs (ty : BoxType) (d : BoxData) (cs : List Mk) (p : List BoxType) :
    (mkInfo ty d cs p).leafs = cs.map (· (p ++ [ty])) := rfl

theorem stbl_trak (t : Track) (p : List BoxType) :
    ∃ q, Spec.stbl (t.trak p) = some (mkInfo (fourcc "stbl") .empty t.stblChildren q) := by
  have hm : ∀ q, (t.mediaHeader q).box.type = fourcc "vmhd" ∨ (t.mediaHeader q).box.type = fourcc "smhd" := by
    intro q
    unfold Track.mediaHeader
    cases t.codec.handler
    · exact Or.inl rfl
    · exact Or.inr rfl
  refine ⟨p ++ [fourcc "trak"] ++ [fourcc "mdia"] ++ [fourcc "minf"], ?_⟩
  have h1 : Spec.child (fourcc "mdia") (t.trak p) = some (mkInfo (fourcc "mdia") .empty [
      mkInfo (fourcc "mdhd") (.mdhd t.mdhd) [],
      mkInfo (fourcc "hdlr") (.hdlr t.hdlr) [],
      mkInfo (fourcc "minf") .empty [t.mediaHeader, Track.dinf, mkInfo (fourcc "stbl") .empty t.stblChildren]]
      (p ++ [fourcc "trak"])) := by
    unfold Spec.child Track.trak
    simp only [mkInfo_leafs, List.map_cons, List.map_nil, List.find?_cons, mkInfo_box, fc_tkhd, fc_edts, fc_mdia]
    simp
  have h2 : Spec.child (fourcc "minf") (mkInfo (fourcc "mdia") .empty [
      mkInfo (fourcc "mdhd") (.mdhd t.mdhd) [],
      mkInfo (fourcc "hdlr") (.hdlr t.hdlr) [],
      mkInfo (fourcc "minf") .empty [t.mediaHeader, Track.dinf, mkInfo (fourcc "stbl") .empty t.stblChildren]]
      (p ++ [fourcc "trak"])) = some (mkInfo (fourcc "minf") .empty [t.mediaHeader, Track.dinf,
        mkInfo (fourcc "stbl") .empty t.stblChildren] (p ++ [fourcc "trak"] ++ [fourcc "mdia"])) := by
    unfold Spec.child
    simp only [mkInfo_leafs, List.map_cons, List.map_nil, List.find?_cons, mkInfo_box, fc_mdhd, fc_hdlr, fc_minf]
    simp
  have h3 : Spec.child (fourcc "stbl") (mkInfo (fourcc "minf") .empty [t.mediaHeader, Track.dinf,
        mkInfo (fourcc "stbl") .empty t.stblChildren] (p ++ [fourcc "trak"] ++ [fourcc "mdia"])) =
      some (mkInfo (fourcc "stbl") .empty t.stblChildren (p ++ [fourcc "trak"] ++ [fourcc "mdia"] ++ [fourcc "minf"])) := by
    unfold Spec.child
    simp only [mkInfo_leafs, List.map_cons, List.map_nil, List.find?_cons]
    rcases hm (p ++ [fourcc "trak"] ++ [fourcc "mdia"] ++ [fourcc "minf"]) with h | h <;>
      (rw [h]; simp only [mkInfo_box, Track.dinf, fc_vmhd, fc_smhd, fc_dinf, fc_stbl]; simp)
  unfold Spec.stbl
  rw [h1, Option.bind_some, h2, Option.bind_some, h3]

theorem stsd_type (c : Codec) (id ts : BitVec 32) (p : List BoxType) : (c.stsd id ts p).box.type = fourcc "stsd" := rfl
theorem stts_type (t : Track) (p : List BoxType) : (t.stts p).box.type = fourcc "stts" := rfl
theorem stss_type (t : Track) (p : List BoxType) : (t.stss p).box.type = fourcc "stss" := rfl
theorem stsc_type (t : Track) (p : List BoxType) : (t.stsc p).box.type = fourcc "stsc" := rfl
theorem stsz_type (t : Track) (p : List BoxType) : (t.stsz p).box.type = fourcc "stsz" := rfl
theorem offsets_type (t : Track) (p : List BoxType) : (t.offsets p).box.type = fourcc "stco" ∨ (t.offsets p).box.type = fourcc "co64" := by
  unfold Track.offsets make_offset_box
  simp only [mkInfo_box]
  cases t.chunk_infos.getLast? with
  | none => exact Or.inl rfl
  | some l =>
    dsimp only
    split
    · exact Or.inr rfl
    · exact Or.inl rfl

theorem stbl_tables (t : Track) (q : List BoxType) :
    Spec.stscEntries (mkInfo (fourcc "stbl") .empty t.stblChildren q) = some (make_stsc_entries t.chunk_infos) ∧
    Spec.stszSizes (mkInfo (fourcc "stbl") .empty t.stblChildren q) = some (t.mdat_sample_sizes.map (·.toNat)) ∧
    Spec.stblOffsets (mkInfo (fourcc "stbl") .empty t.stblChildren q) = Spec.chunkOffsets (make_offset_box t.chunk_infos).data := by
  have ho := offsets_type t (q ++ [fourcc "stbl"])
  have hob : ((t.offsets (q ++ [fourcc "stbl"])).box.data) = (make_offset_box t.chunk_infos).data := rfl
  have hshape : ∃ pre post, t.stblChildren = pre ++ [t.stsc, t.stsz, t.offsets] ++ post ∧
      (pre = [t.codec.stsd t.track_id t.timescale, t.stts] ∨ pre = [t.codec.stsd t.track_id t.timescale, t.stts, t.stss]) ∧
      (post = [] ∨ ∃ r, post = t.rollGroups r) := by
    unfold Track.stblChildren
    cases t.codec
    · exact ⟨_, [], by rw [List.append_nil]; rfl, Or.inr rfl, Or.inl rfl⟩
    · exact ⟨_, [], by rw [List.append_nil]; rfl, Or.inr rfl, Or.inl rfl⟩
    · exact ⟨_, [], by rw [List.append_nil]; rfl, Or.inr rfl, Or.inl rfl⟩
    · exact ⟨_, _, rfl, Or.inl rfl, Or.inr ⟨_, rfl⟩⟩
    · exact ⟨_, _, rfl, Or.inl rfl, Or.inr ⟨_, rfl⟩⟩
    · exact ⟨_, [], by rw [List.append_nil]; rfl, Or.inl rfl, Or.inl rfl⟩
  obtain ⟨pre, post, hs, hpre, hpost⟩ := hshape
  rw [hs]
  have hroll : ∀ (r : BitVec 16), (t.rollGroups r).map (fun m => (m (q ++ [fourcc "stbl"])).box.type) = [fourcc "sgpd", fourcc "sbgp"] :=
    fun r => rfl
  have hpostf : ∀ ty : BoxType, ty = fourcc "stco" ∨ ty = fourcc "co64" →
      (post.map (· (q ++ [fourcc "stbl"]))).find? (fun c => decide (c.box.type = ty)) = none := by
    intro ty hty
    rcases hpost with rfl | ⟨r, rfl⟩
    · rfl
    · rw [List.find?_eq_none]
      intro c hc
      have : c.box.type ∈ (t.rollGroups r).map (fun m => (m (q ++ [fourcc "stbl"])).box.type) := by
        obtain ⟨m, hm, rfl⟩ := List.mem_map.mp hc
        exact List.mem_map_of_mem (f := fun m : Mk => (m (q ++ [fourcc "stbl"])).box.type) hm
      rw [hroll r] at this
      simp only [List.mem_cons, List.not_mem_nil, or_false, fc_sgpd, fc_sbgp] at this
      rcases hty with rfl | rfl <;> rcases this with h | h <;> rw [h] <;> simp [fc_stco, fc_co64]
  refine ⟨?_, ?_, ?_⟩
  · have : Spec.child (fourcc "stsc") (mkInfo (fourcc "stbl") .empty (pre ++ [t.stsc, t.stsz, t.offsets] ++ post) q) =
        some (t.stsc (q ++ [fourcc "stbl"])) := by
      unfold Spec.child
      rcases hpre with rfl | rfl <;>
        simp only [mkInfo_leafs, List.map_append, List.map_cons, List.map_nil, List.cons_append, List.nil_append,
          List.find?_cons, stsd_type, stts_type, stss_type, stsc_type, fc_stsd, fc_stts, fc_stss, fc_stsc] <;> simp
    unfold Spec.stscEntries
    rw [this]; rfl
  · have : Spec.child (fourcc "stsz") (mkInfo (fourcc "stbl") .empty (pre ++ [t.stsc, t.stsz, t.offsets] ++ post) q) =
        some (t.stsz (q ++ [fourcc "stbl"])) := by
      unfold Spec.child
      rcases hpre with rfl | rfl <;>
        simp only [mkInfo_leafs, List.map_append, List.map_cons, List.map_nil, List.cons_append, List.nil_append,
          List.find?_cons, stsd_type, stts_type, stss_type, stsc_type, stsz_type, fc_stsd, fc_stts, fc_stss, fc_stsc, fc_stsz] <;> simp
    unfold Spec.stszSizes
    rw [this]; rfl
  · have : (Spec.child (fourcc "stco") (mkInfo (fourcc "stbl") .empty (pre ++ [t.stsc, t.stsz, t.offsets] ++ post) q)).or
          (Spec.child (fourcc "co64") (mkInfo (fourcc "stbl") .empty (pre ++ [t.stsc, t.stsz, t.offsets] ++ post) q)) =
        some (t.offsets (q ++ [fourcc "stbl"])) := by
      have p1 := hpostf _ (Or.inl rfl)
      have p2 := hpostf _ (Or.inr rfl)
      unfold Spec.child
      rw [fc_stco] at p1 ho ⊢
      rw [fc_co64] at p2 ho ⊢
      rcases hpre with rfl | rfl <;> rcases ho with h | h <;>
        simp only [mkInfo_leafs, List.map_append, List.map_cons, List.map_nil, List.cons_append, List.nil_append,
          List.find?_cons, stsd_type, stts_type, stss_type, stsc_type, stsz_type, fc_stsd, fc_stts, fc_stss, fc_stsc, fc_stsz,
          h, p1, p2] <;> simp
    unfold Spec.stblOffsets
    rw [this, Option.bind_some, hob]

/-- The samples found through the tables of a `trak` box built by the library. -/
theorem trakSamples_trak (file : List Byte) (t : Track) (p : List BoxType) (offs : List Nat)
    (ho : Spec.chunkOffsets (make_offset_box t.chunk_infos).data = some offs) :
    Spec.trakSamples file (t.trak p) = some (Spec.readChunks file (make_stsc_entries t.chunk_infos) 1 offs
      (t.mdat_sample_sizes.map (·.toNat))) := by
  obtain ⟨q, hq⟩ := stbl_trak t p
  obtain ⟨h1, h2, h3⟩ := stbl_tables t q
  unfold Spec.trakSamples
  rw [hq, Option.bind_some, h1, Option.bind_some, h2, Option.bind_some, h3, ho, Option.bind_some]

theorem traks_moovTree (m : Mvhd) (tracks : List Track) :
    Spec.traks (moovTree m tracks) = tracks.map (·.trak [fourcc "moov"]) := by
  unfold Spec.traks moovTree Tree.leafs
  dsimp only
  rw [List.filter_cons_of_neg (by simp only [Tree.box, fc_mvhd, fc_trak]; decide), List.filter_append]
  have h1 : [udta [fourcc "moov"]].filter (fun c => decide (c.box.type = fourcc "trak")) = [] := by
    have : (udta [fourcc "moov"]).box.type = fourcc "udta" := rfl
    simp only [List.filter_cons, this, fc_udta, fc_trak]
    simp
  rw [h1, List.append_nil, List.filter_eq_self]
  intro c hc
  obtain ⟨t, -, rfl⟩ := List.mem_map.mp hc
  have : (t.trak [fourcc "moov"]).box.type = fourcc "trak" := rfl
  simp [this]

end Mp4
