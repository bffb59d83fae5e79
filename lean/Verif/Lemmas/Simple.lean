import Verif.Lemmas.Moov
import Verif.Lemmas.Program

namespace Mp4

/-! ### Placing and writing trees of new boxes -/

theorem good_encodable {t : Tree} (h : t.All Good) : t.All Tree.Encodable := by
  refine Tree.All.mono (fun b hb => ⟨?_, ?_⟩) t (good_writable h)
  · obtain ⟨n, hn⟩ := hb.1
    exact BoxData.writable_of_ok b.data hn
  · have hl := hb.2
    cases hd : b.data <;> first | exact hl _ hd | trivial

theorem adjustTree_good {t : Tree} (h : t.All Good) {o : Nat} (ho : o + t.total < 2 ^ 64) : adjustTree t o = .ok (t.place o) := by
  unfold adjustTree
  rw [C12_layout t o (good_own h) ho]

theorem adjustTree_placed {t : Tree} (h : t.All Good) {o o' : Nat} (ho : o' + t.total < 2 ^ 64) :
    adjustTree (t.place o) o' = .ok (t.place o') := by
  have hown : ∀ (t : Tree) o, (t.place o).All Box.OwnHeader := by
    intro t
    exact (Tree.rec (motive_1 := fun t => ∀ o, (t.place o).All Box.OwnHeader)
      (motive_2 := fun ts => ∀ o, Tree.AllList Box.OwnHeader (Tree.placeList ts o))
      (fun b p ls ih o => by
        rw [Tree.place]
        exact ⟨by intro x hx; cases hx; exact ⟨rfl, rfl⟩, ih _⟩)
      (fun o => trivial)
      (fun t ts ih1 ih2 o => ⟨ih1 _, ih2 _⟩) t)
  unfold adjustTree
  rw [C12_header_independent (t.place o) t o' (by rw [Tree.place_erase]) (hown t o) (good_own h) (by rw [Tree.place_total]; exact ho),
    C12_layout t o' (good_own h) ho]

theorem writeTree_place {t : Tree} (h : t.All Good) (o : Nat) (os : OStream) (ht : t.total < 2 ^ 64) :
    writeTree (t.place o) os = .ok (t.place o, (os.seekp o).write t.encode) := by
  unfold writeTree
  rw [t.place_write o os (good_encodable h) ht]

theorem place_getSize (t : Tree) (o : Nat) : (t.place o).getSize = .ok t.total := by
  obtain ⟨b, p, ls⟩ := t
  rw [Tree.place, Tree.getSize]; rfl

theorem good_encode_length {t : Tree} (h : t.All Good) : t.encode.length = t.total := t.encode_length (good_encodable h)

/-- A box without children. -/
theorem leaf_good (ty : BoxType) (d : BoxData) (h : GoodData d) (p : List BoxType) : (mkInfo ty d [] p).All Good :=
  ⟨⟨rfl, h⟩, trivial⟩

/-! ### moov -/

theorem setNextTrackID_place (id : BitVec 32) (m : Mvhd) (tracks : List Track) (o : Nat) :
    setNextTrackID id ((moovTree m tracks).place o) = (moovTree { m with next_track_id := id } tracks).place o := rfl

theorem moovTree_total_id (id : BitVec 32) (m : Mvhd) (tracks : List Track) :
    (moovTree { m with next_track_id := id } tracks).total = (moovTree m tracks).total := rfl

theorem appendTracks_eq (b : Box) (p : List BoxType) (tracks : List Track) : ∀ ls,
    appendTracks tracks (.node b p ls) = (tracks.map (·.finalize), .node b p (ls ++ tracks.map fun t => t.finalize.trak p)) := by
  induction tracks with
  | nil => intro ls; simp [appendTracks]
  | cons t ts ih => intro ls; simp [appendTracks, Track.appendTrakBoxInfo, ih]

theorem append_newMoov (m : Mvhd) (tracks : List Track) :
    appendUdtaBoxInfo (appendTracks tracks (newMoov m)).2 = moovTree m (tracks.map (·.finalize)) := by
  have : newMoov m = .node { type := fourcc "moov", data := .empty } [fourcc "moov"]
    [.node { type := fourcc "mvhd", data := .mvhd m } [fourcc "moov", fourcc "mvhd"] []] := rfl
  rw [this, appendTracks_eq]
  unfold moovTree appendUdtaBoxInfo
  simp [List.map_map, Function.comp_def]

/-! ### Streams -/

theorem write_zero (d p : List Byte) (q : Nat) (hd : d = []) : ((OStream.mk d q).seekp 0).write p = ⟨p, p.length⟩ := by
  subst hd
  exact OStream.write_end [] p

/-- Filling a gap of `k` bytes in front of data that has already been written. -/
theorem fill_gap (E L H : List Byte) (hH : H ≠ []) :
    (((OStream.mk E (E.length + H.length)).write L).seekp E.length).write H = ⟨E ++ H ++ L, E.length + H.length⟩ := by
  by_cases hL : L = []
  · subst hL
    have : ((OStream.mk E (E.length + H.length)).write []) = ⟨E, E.length + H.length⟩ := rfl
    rw [this]
    have := OStream.write_end E H
    simp only [OStream.seekp, this]
    simp
  · unfold OStream.write
    rw [if_neg hL, if_neg hH]
    simp only [OStream.seekp]
    have hz : (E ++ List.replicate (E.length + H.length - E.length) (0 : Byte)).take (E.length + H.length)
        = E ++ List.replicate H.length 0 := by
      rw [Nat.add_sub_cancel_left, List.take_of_length_le (by simp)]
    rw [hz]
    have hd0 : List.drop (E.length + H.length + L.length) E = [] := by
      rw [List.drop_eq_nil_iff]; omega
    rw [hd0, List.append_nil]
    have h1 : E.length - (E ++ List.replicate H.length (0 : Byte) ++ L).length = 0 := by simp
    rw [h1, List.replicate_zero, List.append_nil]
    congr 1
    rw [List.append_assoc E, List.take_left' rfl, ← List.append_assoc E, List.drop_left' (by simp)]

/-! ### mdat -/

theorem opaq_payload (L : List Byte) : Layout.payload (.opaq ⟨L⟩) = L := toBytes_bytesBits L

/-- The header of `mdat`. -/
def mdatHeader (L : List Byte) : List Byte := Spec.boxHeader (L.length + Spec.headerSize L.length) (BoxType.bytes (fourcc "mdat"))

theorem mdat_encode (L : List Byte) (p : List BoxType) :
    (Tree.node { type := fourcc "mdat", data := .opaq ⟨L⟩ } p []).encode = mdatHeader L ++ L := by
  rw [Tree.encode, Tree.encodeList, List.append_nil]
  rw [show ({ type := fourcc "mdat", data := BoxData.opaq ⟨L⟩ } : Box).data = .opaq ⟨L⟩ from rfl, opaq_payload]
  rfl

theorem mdat_total (L : List Byte) (p : List BoxType) :
    (Tree.node { type := fourcc "mdat", data := .opaq ⟨L⟩ } p []).total = L.length + Spec.headerSize L.length := rfl

theorem mdatHeader_length (L : List Byte) : (mdatHeader L).length = Spec.headerSize L.length := Tree.boxHeader_length _ _

theorem mdat_write (L : List Byte) (o : Nat) (os : OStream) (hn : L.length + Spec.headerSize L.length < 2 ^ 64) :
    (BoxHeader.write ⟨o, L.length + Spec.headerSize L.length, Spec.headerSize L.length, fourcc "mdat", false⟩ os).2.2 =
      (os.seekp o).write (mdatHeader L) := by
  rw [Tree.header_write o L.length _ os hn]; rfl

end Mp4

namespace Mp4

/-! ### Reading the samples back through the tables -/

theorem length_le_flatMap (G : List (Nat × List Sample)) (h : ∀ g ∈ G, g.2 ≠ []) : G.length ≤ (G.flatMap (·.2)).length := by
  induction G with
  | nil => simp
  | cons g G ih =>
    have h1 := List.length_pos_iff.mpr (h g List.mem_cons_self)
    have h2 := ih fun g' hg' => h g' (List.mem_cons_of_mem _ hg')
    rw [List.flatMap_cons, List.length_append, List.length_cons]
    omega

theorem group_le (G : List (Nat × List Sample)) (g : Nat × List Sample) (h : g ∈ G) :
    g.2.length ≤ (G.flatMap (·.2)).length := by
  induction G with
  | nil => simp at h
  | cons g' G ih =>
    rw [List.flatMap_cons, List.length_append]
    rcases List.mem_cons.mp h with rfl | h
    · omega
    · have := ih h; omega

theorem trak_reads (file L : List Byte) (B : Nat) (ss : List Sample) (t : Track) (G : List (Nat × List Sample)) (p : List BoxType)
    (h1 : t.chunk_infos = G.map (chunkInfo B)) (h2 : ss = G.flatMap (·.2)) (h3 : ∀ g ∈ G, g.2 ≠ [])
    (h4 : ∀ g ∈ G, InLog L g.1 g.2) (h5 : (G.map (·.1)).Pairwise (· ≤ ·))
    (h6 : t.mdat_sample_sizes = ss.map (fun s => BitVec.ofNat 32 s.data.length))
    (hn : ss.length < 2 ^ 32 - 1) (hs : ∀ s ∈ ss, s.data.length < 2 ^ 32)
    (hf : slice file B L.length = L) (hl : B + L.length ≤ file.length) (hlt : B + L.length < 2 ^ 64) :
    Spec.trakSamples file (t.trak p) = some (ss.map (·.data)) := by
  have hoff : ∀ g ∈ G, (chunkInfo B g).offset.toNat = B + g.1 := by
    intro g hg
    have := (h4 g hg).2
    simp only [chunkInfo, BitVec.toNat_ofNat]
    exact Nat.mod_eq_of_lt (by omega)
  have hsort : t.chunk_infos.Pairwise fun a b => a.offset.toNat ≤ b.offset.toNat := by
    rw [h1, List.pairwise_map]
    rw [List.pairwise_map] at h5
    refine List.Pairwise.imp_of_mem ?_ h5
    intro a b ha hb hab
    rw [hoff a ha, hoff b hb]
    omega
  have ho := (C34_offsets t.chunk_infos hsort).1
  have hoffs : t.chunk_infos.map (·.offset.toNat) = G.map fun g => B + g.1 := by
    rw [h1, List.map_map]
    apply List.map_congr_left
    intro g hg
    exact hoff g hg
  rw [hoffs] at ho
  rw [trakSamples_trak file t p _ ho]
  have hsz : t.mdat_sample_sizes.map (·.toNat) = (G.flatMap (·.2)).map (·.data.length) := by
    rw [h6, List.map_map, ← h2]
    apply List.map_congr_left
    intro s hs'
    simp only [Function.comp_apply, BitVec.toNat_ofNat]
    exact Nat.mod_eq_of_lt (hs s hs')
  have hlen : t.chunk_infos.length < 2 ^ 32 - 1 := by
    rw [h1, List.length_map]
    have := length_le_flatMap G h3
    rw [← h2] at this
    omega
  rw [hsz, readChunks_spec, h2]
  · intro j g hg
    have hk := (C33_entries t.chunk_infos hlen).1 j (chunkInfo B g) (by rw [h1, List.getElem?_map, hg]; rfl)
    rw [Nat.add_comm 1 j, hk]
    have hgm : g ∈ G := List.mem_of_getElem? hg
    have := group_le G g hgm
    rw [← h2] at this
    simp only [chunkInfo, BitVec.toNat_ofNat]
    exact Nat.mod_eq_of_lt (by omega)
  · intro g hg
    obtain ⟨i1, i2⟩ := h4 g hg
    refine ⟨?_, by omega⟩
    rw [← slice_slice file B L.length g.1 _ i2, hf]
    exact i1

/-! ### SimpleWriter -/

/-- The `ftyp` box. -/
def ftypTree (f : Ftyp) : Tree := Spec.leaf "ftyp" (.ftyp f)

theorem ftypTree_good (f : Ftyp) : (ftypTree f).All Good := ⟨⟨rfl, trivial⟩, trivial⟩

theorem writeFtyp_eq (f : Ftyp) (os : OStream) (h : (ftypTree f).total < 2 ^ 64) :
    writeFtyp f os = .ok ((ftypTree f).total, (os.seekp 0).write (ftypTree f).encode) := by
  unfold writeFtyp
  rw [show mkInfo (fourcc "ftyp") (.ftyp f) [] [] = ftypTree f from rfl, adjustTree_good (ftypTree_good f) (by omega)]
  dsimp only
  rw [writeTree_place (ftypTree_good f) 0 os h]
  dsimp only
  rw [place_getSize]

namespace SimpleWriter

/-- The writer between `writeFtypBox` and `appendTrakAndUdtaBoxInfo` when the sample data is `L`. -/
def Inv (f : Ftyp) (m : Mvhd) (w : SimpleWriter) (L : List Byte) : Prop :=
  w.os = (OStream.mk (ftypTree f).encode ((ftypTree f).total + 16)).write L ∧ w.mdat_data_size = u64 L.length ∧
  w.ftyp_size = some (ftypTree f).total ∧ w.moov = newMoov m

theorem Inv.tell {f : Ftyp} {m : Mvhd} (w : SimpleWriter) (L : List Byte) (h : Inv f m w L) :
    MdatWriter.tellCurrentMdatOffset w = BitVec.ofNat 64 ((ftypTree f).total + 16 + L.length) := by
  show BitVec.ofNat 64 w.os.pos = _
  rw [h.1, OStream.write_pos]

theorem Inv.add {f : Ftyp} {m : Mvhd} (w : SimpleWriter) (L d : List Byte) (h : Inv f m w L) :
    Inv f m (MdatWriter.addMdatData w d) (L ++ d) := by
  obtain ⟨h1, h2, h3, h4⟩ := h
  refine ⟨?_, ?_, h3, h4⟩
  · show w.os.write d = _
    rw [h1, OStream.write_append]
  · show u64 (w.mdat_data_size + d.length) = _
    rw [h2, List.length_append]
    simp [u64]

theorem Inv.step {f : Ftyp} {m : Mvhd} (w w' : SimpleWriter) (L : List Byte) (h : Inv f m w L) (hs : idStep w w') : Inv f m w' L := by
  subst hs
  exact h

theorem Inv.init (os : OStream) (hos : os.data = []) (f : Ftyp) (ts : BitVec 32) (dur now : BitVec 64)
    (h : (ftypTree f).total + 16 < 2 ^ 64) :
    ∃ w, (SimpleWriter.new os f ts dur now).writeFtypBox = .ok w ∧ Inv f (newMvhd now ts dur 1) w [] := by
  unfold writeFtypBox
  rw [show (SimpleWriter.new os f ts dur now).ftyp = f from rfl, show (SimpleWriter.new os f ts dur now).os = os from rfl,
    writeFtyp_eq f os (by omega)]
  refine ⟨_, rfl, ?_, rfl, rfl, rfl⟩
  obtain ⟨d, q⟩ := os
  show (((OStream.mk d q).seekp 0).write (ftypTree f).encode).seekp (u64 ((ftypTree f).total + 16)) = _
  rw [write_zero d _ q hos]
  have : u64 ((ftypTree f).total + 16) = (ftypTree f).total + 16 := Nat.mod_eq_of_lt h
  rw [this]
  rfl

end SimpleWriter

def freeTree : Tree := Spec.leaf "free" (.opaq ⟨[]⟩)
def mdatTree (L : List Byte) : Tree := Spec.leaf "mdat" (.opaq ⟨L⟩)

theorem freeTree_good : freeTree.All Good := ⟨⟨rfl, trivial⟩, trivial⟩
theorem freeTree_total : freeTree.total = 8 := rfl
theorem mdatTree_good (L : List Byte) : (mdatTree L).All Good := ⟨⟨rfl, trivial⟩, trivial⟩

namespace SimpleWriter

/-- The boxes in front of `moov`. -/
def headBoxes (f : Ftyp) (L : List Byte) : List Tree :=
  if L.length + 8 < 2 ^ 32 then [ftypTree f, freeTree, mdatTree L] else [ftypTree f, mdatTree L]

theorem writeFree_eq {f : Ftyp} {w : SimpleWriter} {L : List Byte}
    (h1 : w.os = (OStream.mk (ftypTree f).encode ((ftypTree f).total + 16)).write L) (h2 : w.mdat_data_size = u64 L.length)
    (h3 : w.ftyp_size = some (ftypTree f).total) (hlt : (ftypTree f).total + 16 + L.length < 2 ^ 64) :
    w.writeFreeBoxAndMdatHeader = .ok { w with os := ⟨Tree.encodeList (headBoxes f L), (ftypTree f).total + 16⟩ } := by
  have hu : u64 L.length = L.length := Nat.mod_eq_of_lt (by omega)
  have hE := good_encode_length (ftypTree_good f)
  unfold writeFreeBoxAndMdatHeader headBoxes
  rw [h3, h2, hu, h1]
  simp only [initialised]
  by_cases hc : L.length + 8 < 2 ^ 32
  · have hs : Spec.headerSize L.length = 8 := by rw [Spec.headerSize, if_pos hc]
    have hb : ¬ L.length > UINT32_MAX - 8 := by unfold UINT32_MAX; omega
    rw [if_neg hb, if_pos hc, show mkInfo (fourcc "free") (.opaq ⟨[]⟩) [] [] = freeTree from rfl,
      adjustTree_good freeTree_good (by rw [freeTree_total]; omega)]
    dsimp only
    rw [writeTree_place freeTree_good _ _ (by rw [freeTree_total]; decide)]
    dsimp only
    rw [place_getSize]
    dsimp only
    have hu1 : u64 ((ftypTree f).total + freeTree.total) = (ftypTree f).total + 8 := by
      rw [freeTree_total]; exact Nat.mod_eq_of_lt (by omega)
    have hu2 : u64 (L.length + SMALL_HEADER_SIZE) = L.length + Spec.headerSize L.length := by
      rw [hs]; exact Nat.mod_eq_of_lt (by unfold SMALL_HEADER_SIZE; omega)
    rw [hu1, hu2, show SMALL_HEADER_SIZE = Spec.headerSize L.length from hs.symm, mdat_write L _ _ (by omega)]
    have hfl : freeTree.encode.length = 8 := good_encode_length freeTree_good
    have hml : (mdatHeader L).length = 8 := by rw [mdatHeader_length, hs]
    have hpos : ∀ x : OStream, ((x.seekp (ftypTree f).total).write freeTree.encode).seekp ((ftypTree f).total + 8)
        = (x.seekp (ftypTree f).total).write freeTree.encode := by
      intro x
      apply Tree.seekp_of_pos
      rw [OStream.write_pos, hfl]; rfl
    rw [show ∀ x : OStream, (x.seekp (ftypTree f).total).seekp (ftypTree f).total = x.seekp (ftypTree f).total from fun _ => rfl, hpos,
      ← OStream.write_append]
    have hg := fill_gap (ftypTree f).encode L (freeTree.encode ++ mdatHeader L)
      (by intro h; have := congrArg List.length h; simp [hfl] at this)
    rw [List.length_append, hfl, hml, hE] at hg
    rw [hg]
    congr 3
    simp [Tree.encodeList, mdatTree, Spec.leaf, mdat_encode]
  · have hs : Spec.headerSize L.length = 16 := by rw [Spec.headerSize, if_neg hc]
    have hb : L.length > UINT32_MAX - 8 := by unfold UINT32_MAX; omega
    rw [if_pos hb, if_neg hc]
    have hu2 : u64 (L.length + LARGE_HEADER_SIZE) = L.length + Spec.headerSize L.length := by
      rw [hs]; exact Nat.mod_eq_of_lt (by unfold LARGE_HEADER_SIZE; omega)
    rw [hu2, show LARGE_HEADER_SIZE = Spec.headerSize L.length from hs.symm, mdat_write L _ _ (by omega)]
    have hml : (mdatHeader L).length = 16 := by rw [mdatHeader_length, hs]
    rw [show ∀ x : OStream, (x.seekp (ftypTree f).total).seekp (ftypTree f).total = x.seekp (ftypTree f).total from fun _ => rfl]
    have hg := fill_gap (ftypTree f).encode L (mdatHeader L) (by intro h; have := congrArg List.length h; simp [hml] at this)
    rw [hml, hE] at hg
    rw [hg]
    congr 3
    simp [Tree.encodeList, mdatTree, Spec.leaf, mdat_encode]

theorem encodeList_append (a b : List Tree) : Tree.encodeList (a ++ b) = Tree.encodeList a ++ Tree.encodeList b := by
  induction a with
  | nil => simp [Tree.encodeList]
  | cons t a ih => simp [Tree.encodeList, ih]

theorem headBoxes_eq (f : Ftyp) (L : List Byte) : ∃ H : List Byte, H.length = 16 ∧
    Tree.encodeList (headBoxes f L) = (ftypTree f).encode ++ H ++ L := by
  unfold headBoxes
  by_cases hc : L.length + 8 < 2 ^ 32
  · have hs : Spec.headerSize L.length = 8 := by rw [Spec.headerSize, if_pos hc]
    refine ⟨freeTree.encode ++ mdatHeader L, ?_, ?_⟩
    · rw [List.length_append, good_encode_length freeTree_good, mdatHeader_length, hs, freeTree_total]
    · rw [if_pos hc]; simp [Tree.encodeList, mdatTree, Spec.leaf, mdat_encode]
  · have hs : Spec.headerSize L.length = 16 := by rw [Spec.headerSize, if_neg hc]
    refine ⟨mdatHeader L, by rw [mdatHeader_length, hs], ?_⟩
    rw [if_neg hc]; simp [Tree.encodeList, mdatTree, Spec.leaf, mdat_encode]

/-- The end of the program. -/
theorem finish_eq {f : Ftyp} {m : Mvhd} {s : Session SimpleWriter} {L : List Byte} (h : Inv f m s.writer L)
    (hlt : (ftypTree f).total + 16 + L.length + (moovTree m (s.tracks.map (·.finalize))).total < 2 ^ 64) :
    ∃ w, SimpleWriter.finish s = .ok w ∧
      w.os.data = Tree.encodeList (headBoxes f L ++
        [moovTree { m with next_track_id := s.writer.next_track_id } (s.tracks.map (·.finalize))]) := by
  obtain ⟨h1, h2, h3, h4⟩ := h
  have hu : u64 L.length = L.length := Nat.mod_eq_of_lt (by omega)
  have hE := good_encode_length (ftypTree_good f)
  have hw : (s.writer.appendTrakAndUdtaBoxInfo s.tracks).1 =
      { s.writer with moov := moovTree m (s.tracks.map (·.finalize)) } := by
    unfold appendTrakAndUdtaBoxInfo
    dsimp only
    rw [h4, append_newMoov]
  unfold SimpleWriter.finish
  rw [hw, writeFree_eq (w := { s.writer with moov := moovTree m (s.tracks.map (·.finalize)) }) (f := f) (L := L) h1 h2 h3 (by omega)]
  dsimp only
  unfold writeMoovBox setOffsetAndSize
  dsimp only
  rw [h3]
  simp only [initialised]
  have ho : u64 (u64 ((ftypTree f).total + LARGE_HEADER_SIZE) + s.writer.mdat_data_size) = (ftypTree f).total + 16 + L.length := by
    rw [h2, hu]
    unfold LARGE_HEADER_SIZE u64
    rw [Nat.mod_eq_of_lt (a := (ftypTree f).total + 16) (by omega)]
    exact Nat.mod_eq_of_lt (by omega)
  rw [ho, adjustTree_good (moovTree_good _ _) (by omega)]
  dsimp only
  rw [setNextTrackID_place, writeTree_place (moovTree_good _ _) _ _ (by rw [moovTree_total_id]; omega)]
  refine ⟨_, rfl, ?_⟩
  obtain ⟨H, hH, he⟩ := headBoxes_eq f L
  dsimp only
  rw [encodeList_append, Tree.encodeList, Tree.encodeList, List.append_nil]
  have hlen : (ftypTree f).total + 16 + L.length = (Tree.encodeList (headBoxes f L)).length := by
    rw [he]; simp [hE, hH, Nat.add_assoc]
  rw [hlen]
  show ((OStream.mk _ _).write _).data = _
  rw [OStream.write_end]

end SimpleWriter
end Mp4
