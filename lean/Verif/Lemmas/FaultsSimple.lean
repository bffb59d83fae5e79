import Verif.Lemmas.Faults
import Verif.Lemmas.Sim
import Verif.Props.Writer

/-! # SimpleWriter on a device that can fail -/

namespace Mp4

/-! ### Content at the end of `ftyp` and `moov` -/

theorem ftypTree_ends (f : Ftyp) : (ftypTree f).EndsInContent := by
  unfold ftypTree Spec.leaf
  rw [Tree.EndsInContent]
  intro h
  have := Tree.payload_length { type := fourcc "ftyp", data := .ftyp f } (good_encodable (ftypTree_good f)).1
  dsimp only at this h
  rw [h] at this
  simp [BoxData.getDataSize, Ftyp.getDataSize] at this
  omega

theorem endsInContentList_last (a : List Tree) (t : Tree) (h : t.EndsInContent) : Tree.EndsInContentList (a ++ [t]) := by
  induction a with
  | nil => rw [List.nil_append, Tree.EndsInContentList]; exact h
  | cons u a ih =>
    rcases a with _ | ⟨v, a⟩
    · rw [List.cons_append, List.nil_append, Tree.EndsInContentList, Tree.EndsInContentList]; exact h
    · rw [List.cons_append, List.cons_append, Tree.EndsInContentList]; exact ih

theorem udta_ends (p : List BoxType) : (udta p).EndsInContent := by
  have hd : Layout.payload (.data ⟨1, 0, shiguredoMp4⟩) ≠ [] := by decide +kernel
  simp only [udta, mkInfo, List.map, Tree.EndsInContent, Tree.EndsInContentList]
  exact hd

theorem moovTree_ends (m : Mvhd) (tracks : List Track) : (moovTree m tracks).EndsInContent := by
  unfold moovTree
  rw [Tree.EndsInContent]
  exact endsInContentList_last (.node _ _ [] :: _) _ (udta_ends _)

theorem moovTree_has (m : Mvhd) (tracks : List Track) : (moovTree m tracks).HasContent := Tree.endsInContent_has _ (moovTree_ends m tracks)

/-! ### The 16 bytes between `ftyp` and the sample data -/

/-- The `free` box and the header of `mdat`. -/
def gapBytes (L : List Byte) : List Byte := if L.length + 8 < 2 ^ 32 then freeTree.encode ++ mdatHeader L else mdatHeader L

theorem gapBytes_length (L : List Byte) : (gapBytes L).length = 16 := by
  unfold gapBytes
  split <;> rename_i hc
  · rw [List.length_append, good_encode_length freeTree_good, mdatHeader_length, Spec.headerSize, if_pos hc, freeTree_total]
  · rw [mdatHeader_length, Spec.headerSize, if_neg hc]

theorem headBoxes_gap (f : Ftyp) (L : List Byte) :
    Tree.encodeList (SimpleWriter.headBoxes f L) = (ftypTree f).encode ++ gapBytes L ++ L := by
  unfold SimpleWriter.headBoxes gapBytes
  split <;> simp [Tree.encodeList, mdatTree, Spec.leaf, mdat_encode]

theorem Wrote.of_seek {dev : Device} {s s' : FStream} {o o' : Nat} {l : List Byte}
    (h : Wrote dev { s with os := s.os.seekp o', tries := s.tries + 1 } o l s') : Wrote dev s o l s' := by
  obtain ⟨h1, h2, h3⟩ := h
  refine ⟨h1, by dsimp only at h2; omega, ?_⟩
  rcases h3 with ⟨a, b⟩ | ⟨a, t, p, b, c⟩
  · exact .inl ⟨a, b⟩
  · exact .inr ⟨a, t, p, by dsimp only at b; omega, c⟩

theorem FStream.check_ok {s : FStream} (h : s.good = true) (what : String) : s.check what = .ok s := by
  unfold FStream.check; rw [if_pos h]

theorem FStream.check_error {s : FStream} (h : s.good = false) (what : String) : ∃ e, s.check what = .error e := by
  unfold FStream.check; rw [if_neg (by rw [h]; simp)]; exact ⟨_, rfl⟩

/-- The header of `mdat`. -/
theorem mdatF (dev : Device) (L : List Byte) (o : Nat) (s : FStream) (hg : s.good = true) (hn : L.length + Spec.headerSize L.length < 2 ^ 64) :
    (∃ e h' s', BoxHeader.writeF dev ⟨o, L.length + Spec.headerSize L.length, Spec.headerSize L.length, fourcc "mdat", false⟩ s =
      (.error e, h', s') ∧ ∀ N, Fails dev s N) ∨
    ∃ n h' s', BoxHeader.writeF dev ⟨o, L.length + Spec.headerSize L.length, Spec.headerSize L.length, fourcc "mdat", false⟩ s =
      (.ok n, h', s') ∧ Wrote dev s o (mdatHeader L) s' := by
  rcases headerF dev ⟨o, L.length + Spec.headerSize L.length, Spec.headerSize L.length, fourcc "mdat", false⟩ s hg with
    ⟨⟨e, he⟩, hF⟩ | ⟨s', h1, h2, -⟩
  · left
    rcases hr : BoxHeader.writeF dev ⟨o, L.length + Spec.headerSize L.length, Spec.headerSize L.length, fourcc "mdat", false⟩ s
      with ⟨r, h', s'⟩
    rw [hr] at he
    dsimp only at he
    rw [he]
    exact ⟨_, _, _, rfl, hF⟩
  · right
    rw [header_bytes _ _ _ hn] at h2
    exact ⟨_, _, _, h1, h2⟩

namespace FaultySimple

theorem writeFreeF {x : FaultySimple} {F : Nat} {L : List Byte} (hg : x.s.good = true) (h1 : x.w.mdat_data_size = L.length)
    (h2 : x.w.ftyp_size = some F) (hlt : F + 16 + L.length < 2 ^ 64) :
    (∃ e, x.writeFreeBoxAndMdatHeader = .error e ∧ Fails x.dev x.s (F + 16)) ∨
    ∃ s', x.writeFreeBoxAndMdatHeader = .ok { x with s := s' } ∧ Wrote x.dev x.s F (gapBytes L) s' := by
  unfold writeFreeBoxAndMdatHeader
  rw [h2, h1]
  simp only [initialised]
  rcases seek_cases x.dev x.s F hg with hs | ⟨hs, hF⟩
  · have hg1 : (x.s.seekp x.dev F).good = true := by rw [hs]; exact hg
    rw [FStream.check_ok hg1]
    dsimp only
    rw [hs]
    by_cases hc : L.length + 8 < 2 ^ 32
    · have hsz : Spec.headerSize L.length = 8 := by rw [Spec.headerSize, if_pos hc]
      have hb : ¬ L.length > UINT32_MAX - 8 := by unfold UINT32_MAX; omega
      rw [if_neg hb, show mkInfo (fourcc "free") (.opaq ⟨[]⟩) [] [] = freeTree from rfl,
        adjustTree_good freeTree_good (by rw [freeTree_total]; omega)]
      dsimp only
      have hfl : freeTree.encode.length = 8 := good_encode_length freeTree_good
      rcases writeTreeF_cases (dev := x.dev) freeTree_good F { x.s with os := x.s.os.seekp F, tries := x.s.tries + 1 }
        (by rw [freeTree_total]; decide) hg with ⟨⟨e, he⟩, hF⟩ | ⟨s2, h3, h4, -⟩
      · left
        rw [he]
        exact ⟨e, rfl, hF.mono (by dsimp only; omega) (by omega)⟩
      · rw [h3]
        dsimp only
        rw [FStream.check_ok h4.1]
        dsimp only
        rw [place_getSize]
        dsimp only
        have hu1 : u64 (F + freeTree.total) = F + 8 := by
          rw [freeTree_total]; exact Nat.mod_eq_of_lt (by omega)
        have hu2 : u64 (L.length + SMALL_HEADER_SIZE) = L.length + Spec.headerSize L.length := by
          rw [hsz]; exact Nat.mod_eq_of_lt (by unfold SMALL_HEADER_SIZE; omega)
        rw [hu1, hu2, show SMALL_HEADER_SIZE = Spec.headerSize L.length from hsz.symm]
        rcases mdatF x.dev L (F + 8) s2 h4.1 (by omega) with ⟨e, h', s3, h5, hF⟩ | ⟨n, h', s3, h5, h6⟩
        · left
          rw [h5]
          exact ⟨e, rfl, (hF (F + 16)).mono (by have := h4.2.1; dsimp only at this; omega) (Nat.le_refl _)⟩
        · right
          rw [h5]
          dsimp only
          rw [FStream.check_ok h6.1]
          refine ⟨s3, rfl, ?_⟩
          unfold gapBytes
          rw [if_pos hc]
          refine Wrote.of_seek (h4.append ?_)
          rw [hfl]; exact h6
    · have hsz : Spec.headerSize L.length = 16 := by rw [Spec.headerSize, if_neg hc]
      have hb : L.length > UINT32_MAX - 8 := by unfold UINT32_MAX; omega
      rw [if_pos hb]
      have hu2 : u64 (L.length + LARGE_HEADER_SIZE) = L.length + Spec.headerSize L.length := by
        rw [hsz]; exact Nat.mod_eq_of_lt (by unfold LARGE_HEADER_SIZE; omega)
      rw [hu2, show LARGE_HEADER_SIZE = Spec.headerSize L.length from hsz.symm]
      rcases mdatF x.dev L F { x.s with os := x.s.os.seekp F, tries := x.s.tries + 1 } hg (by omega) with
        ⟨e, h', s3, h5, hF⟩ | ⟨n, h', s3, h5, h6⟩
      · left
        rw [h5]
        exact ⟨e, rfl, (hF (F + 16)).mono (by dsimp only; omega) (Nat.le_refl _)⟩
      · right
        rw [h5]
        dsimp only
        rw [FStream.check_ok h6.1]
        refine ⟨s3, rfl, ?_⟩
        unfold gapBytes
        rw [if_neg hc]
        exact Wrote.of_seek h6
  · left
    obtain ⟨e, he⟩ := FStream.check_error hs "SimpleWriter::writeFreeBoxAndMdatHeader(): ostream::seekp() failed"
    rw [he]
    exact ⟨e, rfl, hF _⟩

end FaultySimple

/-! ### The same calls on a device that can fail and on one that cannot -/

/-- Two chunks that differ in their offset only, the first not behind the second when `b`. -/
def ChunkLe (b : Prop) (c c' : ChunkInfo) : Prop :=
  c'.number_of_samples = c.number_of_samples ∧ c'.initialized = c.initialized ∧ (b → c.offset.toNat ≤ c'.offset.toNat)

def ChunksLe (b : Prop) : List ChunkInfo → List ChunkInfo → Prop
  | [], [] => True
  | c :: cs, c' :: cs' => ChunkLe b c c' ∧ ChunksLe b cs cs'
  | _, _ => False

theorem ChunkLe.refl (b : Prop) (c : ChunkInfo) : ChunkLe b c c := ⟨rfl, rfl, fun _ => Nat.le_refl _⟩

theorem ChunksLe.refl (b : Prop) : ∀ cs, ChunksLe b cs cs
  | [] => trivial
  | c :: cs => ⟨.refl b c, ChunksLe.refl b cs⟩

theorem ChunkLe.mono {b b' : Prop} {c c' : ChunkInfo} (h : ChunkLe b c c') (hb : b' → b) : ChunkLe b' c c' :=
  ⟨h.1, h.2.1, fun hb' => h.2.2 (hb hb')⟩

theorem ChunksLe.mono {b b' : Prop} (hb : b' → b) : ∀ {cs cs'}, ChunksLe b cs cs' → ChunksLe b' cs cs'
  | [], [], _ => trivial
  | _ :: _, _ :: _, h => ⟨h.1.mono hb, ChunksLe.mono hb h.2⟩
  | [], _ :: _, h => h.elim
  | _ :: _, [], h => h.elim

theorem ChunksLe.snoc {b : Prop} {c c' : ChunkInfo} (hc : ChunkLe b c c') : ∀ {cs cs'}, ChunksLe b cs cs' → ChunksLe b (cs ++ [c]) (cs' ++ [c'])
  | [], [], _ => ⟨hc, trivial⟩
  | _ :: _, _ :: _, h => ⟨h.1, ChunksLe.snoc hc h.2⟩
  | [], _ :: _, h => h.elim
  | _ :: _, [], h => h.elim

theorem ChunksLe.numbers {b : Prop} : ∀ {cs cs'}, ChunksLe b cs cs' → cs'.map (·.number_of_samples) = cs.map (·.number_of_samples)
  | [], [], _ => rfl
  | _ :: _, _ :: _, h => by rw [List.map_cons, List.map_cons, h.1.1, ChunksLe.numbers h.2]
  | [], _ :: _, h => h.elim
  | _ :: _, [], h => h.elim

theorem ChunksLe.last {b : Prop} (hb : b) : ∀ {cs cs'}, ChunksLe b cs cs' → ∀ c, cs.getLast? = some c →
    ∃ c', cs'.getLast? = some c' ∧ c.offset.toNat ≤ c'.offset.toNat
  | [], [], _, c, hc => by simp at hc
  | [], _ :: _, h, _, _ => h.elim
  | _ :: _, [], h, _, _ => h.elim
  | [d], [d'], h, c, hc => by
    simp at hc; subst hc
    exact ⟨d', rfl, h.1.2.2 hb⟩
  | [_], _ :: _ :: _, h, _, _ => h.2.elim
  | _ :: _ :: _, [_], h, _, _ => h.2.elim
  | d :: e :: cs, d' :: e' :: cs', h, c, hc => by
    rw [List.getLast?_cons_cons] at hc ⊢
    exact ChunksLe.last hb h.2 c hc

/-- Two tracks that differ in the offsets of their chunks only. -/
def TrackLe (b : Prop) (t t' : Track) : Prop :=
  t' = { t with chunk_infos := t'.chunk_infos, current_chunk_info := t'.current_chunk_info } ∧
  ChunksLe b t.chunk_infos t'.chunk_infos ∧ ChunkLe b t.current_chunk_info t'.current_chunk_info

theorem TrackLe.refl (b : Prop) (t : Track) : TrackLe b t t := ⟨rfl, .refl b _, .refl b _⟩

theorem TrackLe.mono {b b' : Prop} {t t' : Track} (h : TrackLe b t t') (hb : b' → b) : TrackLe b' t t' :=
  ⟨h.1, h.2.1.mono hb, h.2.2.mono hb⟩

theorem TrackLe.terminate {b : Prop} {t t' : Track} (h : TrackLe b t t') : TrackLe b t.terminateCurrentChunk t'.terminateCurrentChunk := by
  obtain ⟨h1, h2, h3⟩ := h
  generalize t'.chunk_infos = cs at h1 h2
  generalize t'.current_chunk_info = c at h1 h3
  subst h1
  unfold Track.terminateCurrentChunk
  dsimp only
  rw [h3.1]
  split
  · exact ⟨rfl, h2.snoc h3, .refl b _⟩
  · exact ⟨rfl, h2, h3⟩

theorem TrackLe.finalize {b : Prop} {t t' : Track} (h : TrackLe b t t') :
    SameButOffsets { t.finalize with current_chunk_info := t'.finalize.current_chunk_info } t'.finalize ∧
    ChunksLe b t.finalize.chunk_infos t'.finalize.chunk_infos := by
  obtain ⟨h1, h2, h3⟩ := h
  generalize t'.chunk_infos = cs at h1 h2
  generalize t'.current_chunk_info = c at h1 h3
  subst h1
  unfold Track.finalize
  dsimp only
  split
  · exact ⟨⟨cs, rfl, h2.numbers⟩, h2⟩
  · have hh := h3.1
    dsimp only
    rw [hh]
    by_cases hp : t.current_chunk_info.number_of_samples > 0
    · simp only [if_pos hp]
      exact ⟨⟨cs ++ [c], rfl, (h2.snoc h3).numbers⟩, h2.snoc h3⟩
    · simp only [if_neg hp]
      exact ⟨⟨cs, rfl, h2.numbers⟩, h2⟩

theorem trak_current (t : Track) (c : ChunkInfo) (p : List BoxType) : Track.trak { t with current_chunk_info := c } p = t.trak p := rfl

theorem TrackLe.trak {b : Prop} {t t' : Track} (h : TrackLe b t t') (hb : b) (p : List BoxType) :
    (t.finalize.trak p).Le (t'.finalize.trak p) := by
  obtain ⟨h1, h2⟩ := h.finalize
  rw [← trak_current t.finalize t'.finalize.current_chunk_info]
  apply trak_le h1
  dsimp only
  have hl : t.finalize.chunk_infos.length = t'.finalize.chunk_infos.length := by
    have := congrArg List.length h2.numbers
    simpa using this.symm
  rw [offset_box_size, offset_box_size, hl]
  apply Nat.add_le_add_left
  apply Nat.mul_le_mul_left
  split
  · rename_i hw
    obtain ⟨l, hl, hl2⟩ := hw
    obtain ⟨l', hl', hl3⟩ := h2.last hb l hl
    rw [if_pos ⟨l', hl', by omega⟩]
    exact Nat.le_refl _
  · split <;> decide

end Mp4
