import Verif.Lemmas.TreeOrder
import Verif.Lemmas.Simple

/-! # FaststartWriter: the loop of `appendTrakAndUdtaBoxInfo` -/

namespace Mp4

/-- The track with its chunks moved by `S` bytes. -/
def Track.shift (S : Nat) (t : Track) : Track :=
  { t with chunk_infos := t.chunk_infos.map fun c => { c with offset := c.offset + BitVec.ofNat 64 S } }

theorem Track.reset_eq (t : Track) (S : Nat) : t.resetChunkOffsets (BitVec.ofNat 64 S) = t.finalize.shift S := rfl

theorem Track.finalize_finalized (t : Track) : t.finalize.finalized = true := by
  unfold Track.finalize
  split
  · assumption
  · rfl

theorem Track.finalize_of_finalized {t : Track} (h : t.finalized = true) : t.finalize = t := by
  unfold Track.finalize; rw [if_pos h]

theorem Track.shift_shift (t : Track) (a b : Nat) : (t.shift a).shift b = t.shift (a + b) := by
  unfold Track.shift
  simp only [List.map_map]
  congr 1
  apply List.map_congr_left
  intro c _
  simp only [Function.comp_apply, BitVec.ofNat_add]
  rw [BitVec.add_assoc]

theorem Track.shift_mod (t : Track) {a b : Nat} (h : BitVec.ofNat 64 a = BitVec.ofNat 64 b) : t.shift a = t.shift b := by
  unfold Track.shift; rw [h]

/-- The next round moves the chunks from `prev` to `size`. -/
theorem Track.shift_next {t : Track} (h : t.finalized = true) (prev size : Nat) (hs : size < 2 ^ 64) (hp : prev < 2 ^ 64) :
    (t.shift prev).resetChunkOffsets (BitVec.ofNat 64 (sub64 size prev)) = t.shift size := by
  rw [Track.reset_eq, Track.finalize_of_finalized (t := t.shift prev) h, Track.shift_shift]
  apply Track.shift_mod
  apply BitVec.eq_of_toNat_eq
  simp only [BitVec.toNat_ofNat, sub64]
  omega

/-- Chunk offsets are at most `N`. -/
def OffsetsBelow (N : Nat) (t : Track) : Prop := ∀ c ∈ t.chunk_infos, c.offset.toNat ≤ N

/-- Does the track need 64-bit offsets when its chunks are moved by `S`? -/
def wide (S : Nat) (t : Track) : Bool :=
  match t.chunk_infos.getLast? with
  | none => false
  | some l => decide (2 ^ 32 ≤ l.offset.toNat + S)

theorem shift_offset_size {N S : Nat} {t : Track} (h : OffsetsBelow N t) (hN : N + S < 2 ^ 64) :
    (make_offset_box (t.shift S).chunk_infos).data.getDataSize = 8 + t.chunk_infos.length * (if wide S t then 8 else 4) := by
  rw [offset_box_size]
  unfold Track.shift
  dsimp only
  rw [List.length_map]
  congr 2
  unfold wide
  rw [List.getLast?_map]
  cases hl : t.chunk_infos.getLast? with
  | none => simp
  | some l =>
    have hm := h l (List.mem_of_getLast? hl)
    have hv : (l.offset + BitVec.ofNat 64 S).toNat = l.offset.toNat + S := by
      rw [BitVec.toNat_add, BitVec.toNat_ofNat]; omega
    simp [hv]

theorem shift_same (t : Track) (S S' : Nat) : SameButOffsets (t.shift S) (t.shift S') := by
  refine ⟨(t.shift S').chunk_infos, rfl, ?_⟩
  unfold Track.shift
  simp [List.map_map, Function.comp_def]

/-- The size of `moov` when the sample data starts at `S`. -/
def moovSize (m : Mvhd) (B : List Track) (S : Nat) : Nat := (moovTree m (B.map (·.shift S))).total

theorem moovSize_le {m : Mvhd} {B : List Track} {N S S' : Nat} (hB : ∀ t ∈ B, OffsetsBelow N t) (hS : N + S < 2 ^ 64)
    (hS' : N + S' < 2 ^ 64) (hw : ∀ t ∈ B, wide S t = true → wide S' t = true) : moovSize m B S ≤ moovSize m B S' := by
  apply Tree.Le.total
  apply moovTree_le
  intro t ht
  apply trak_le (shift_same t S S')
  rw [shift_offset_size (hB t ht) hS, shift_offset_size (hB t ht) hS']
  have := hw t ht
  cases h1 : wide S t <;> cases h2 : wide S' t
  · simp
  · simp; exact Nat.mul_le_mul_left _ (by decide)
  · rw [h1, h2] at this; exact absurd (this rfl) (by decide)
  · simp

theorem wide_mono {S S' : Nat} (h : S ≤ S') (t : Track) (hw : wide S t = true) : wide S' t = true := by
  unfold wide at *
  cases hl : t.chunk_infos.getLast? with
  | none => rw [hl] at hw; exact hw
  | some l => rw [hl] at hw; simp at hw ⊢; omega

theorem moovSize_mono {m : Mvhd} {B : List Track} {N S S' : Nat} (hB : ∀ t ∈ B, OffsetsBelow N t) (h : S ≤ S')
    (hS' : N + S' < 2 ^ 64) : moovSize m B S ≤ moovSize m B S' :=
  moovSize_le hB (by omega) hS' fun t _ => wide_mono h t

theorem moovSize_eq {m : Mvhd} {B : List Track} {N S S' : Nat} (hB : ∀ t ∈ B, OffsetsBelow N t) (hS : N + S < 2 ^ 64)
    (hS' : N + S' < 2 ^ 64) (hw : ∀ t ∈ B, wide S t = wide S' t) : moovSize m B S = moovSize m B S' :=
  Nat.le_antisymm (moovSize_le hB hS hS' fun t ht h => by rw [← hw t ht]; exact h)
    (moovSize_le hB hS' hS fun t ht h => by rw [hw t ht]; exact h)

theorem moovSize_max {m : Mvhd} {B : List Track} {N S : Nat} (hB : ∀ t ∈ B, OffsetsBelow N t) (hS : N + S < 2 ^ 64)
    (hN : N + 2 ^ 32 < 2 ^ 64) : moovSize m B S ≤ moovSize m B (2 ^ 32) :=
  moovSize_le hB hS hN fun t _ h => by
    unfold wide at *
    cases hl : t.chunk_infos.getLast? with
    | none => rw [hl] at h; exact h
    | some l => simp

theorem countP_mono {α : Type} (p q : α → Bool) (l : List α) (h : ∀ a ∈ l, p a = true → q a = true) :
    l.countP p ≤ l.countP q ∧ (l.countP p = l.countP q → ∀ a ∈ l, p a = q a) := by
  induction l with
  | nil => simp
  | cons x l ih =>
    obtain ⟨i1, i2⟩ := ih fun a ha => h a (List.mem_cons_of_mem _ ha)
    have hx := h x List.mem_cons_self
    rw [List.countP_cons, List.countP_cons]
    cases hp : p x <;> cases hq : q x
    · refine ⟨by simpa using i1, fun he a ha => ?_⟩
      rcases List.mem_cons.mp ha with rfl | ha
      · rw [hp, hq]
      · exact i2 (by simpa using he) a ha
    · refine ⟨by simp; omega, fun he => ?_⟩
      simp at he; omega
    · rw [hp, hq] at hx; exact absurd (hx rfl) (by decide)
    · refine ⟨by simpa using i1, fun he a ha => ?_⟩
      rcases List.mem_cons.mp ha with rfl | ha
      · rw [hp, hq]
      · exact i2 (by simpa using he) a ha

namespace FaststartWriter

/-- The `mvhd` box of a new `moov`. -/
def mvhd (w : FaststartWriter) : Mvhd := newMvhd w.time_from_epoch w.mvhd_timescale w.mvhd_duration w.next_track_id

theorem shiftAndAppend_eq (d : Nat) (b : Box) (p : List BoxType) (tracks : List Track) : ∀ ls,
    shiftAndAppend d tracks (.node b p ls) =
      (tracks.map (·.resetChunkOffsets (BitVec.ofNat 64 d)),
       .node b p (ls ++ tracks.map fun t => (t.resetChunkOffsets (BitVec.ofNat 64 d)).trak p)) := by
  induction tracks with
  | nil => intro ls; simp [shiftAndAppend]
  | cons t ts ih =>
    intro ls
    have hf : (t.resetChunkOffsets (BitVec.ofNat 64 d)).finalize = t.resetChunkOffsets (BitVec.ofNat 64 d) :=
      Track.finalize_of_finalized (by rw [Track.reset_eq]; exact t.finalize_finalized)
    simp only [shiftAndAppend, Track.appendTrakBoxInfo, hf, ih, List.map_cons]
    simp

/-- Where the tracks are in the loop. -/
def AtRound (B tracks : List Track) (prev size : Nat) : Prop :=
  tracks.map (·.resetChunkOffsets (BitVec.ofNat 64 (sub64 size prev))) = B.map (·.shift size)

theorem newMoov_place (m : Mvhd) (F : Nat) : ∃ hm hv,
    (newMoov m).place F = .node { type := fourcc "moov", data := .empty, header := some hm } [fourcc "moov"]
      [.node { type := fourcc "mvhd", data := .mvhd m, header := some hv } [fourcc "moov", fourcc "mvhd"] []] ∧
      hm.type = fourcc "moov" ∧ hm.extendToEof = false ∧ hv.type = fourcc "mvhd" ∧ hv.extendToEof = false := by
  refine ⟨_, _, rfl, rfl, rfl, rfl, rfl⟩

theorem newMoov_good (m : Mvhd) : (newMoov m).All Good := ⟨⟨rfl, trivial⟩, ⟨⟨rfl, trivial⟩, trivial⟩, trivial⟩

theorem newMoov_total (m : Mvhd) : (newMoov m).total ≤ 200 := by
  unfold newMoov mkInfo
  simp only [List.map_cons, List.map_nil, Tree.total, Tree.inner, Tree.totalList, BoxData.getDataSize]
  have h1 : m.getDataSize ≤ 112 := by unfold Mvhd.getDataSize; split <;> omega
  have h2 := Tree.headerSize_cases (m.getDataSize + 0)
  have h3 := Tree.headerSize_cases (0 + (m.getDataSize + 0 + Spec.headerSize (m.getDataSize + 0) + 0))
  omega

/-- One round of the loop. -/
theorem appendRound_eq {w : FaststartWriter} {B tracks : List Track} {prev size F : Nat} (hF : w.ftyp_size = some F)
    (hr : AtRound B tracks prev size) (hF2 : F + 200 < 2 ^ 64)
    (hfit : F + moovSize w.mvhd B size + w.getMdatHeaderSize < 2 ^ 64) :
    w.appendRound tracks prev size = .ok ({ w with moov := some ((moovTree w.mvhd (B.map (·.shift size))).place F) },
      B.map (·.shift size), F + moovSize w.mvhd B size + w.getMdatHeaderSize) := by
  have hrec : w.recreateMoovBoxInfo = .ok { w with moov := some ((newMoov w.mvhd).place F) } := by
    unfold recreateMoovBoxInfo setOffsetAndSize
    dsimp only
    rw [hF]
    simp only [initialised]
    rw [adjustTree_good (newMoov_good _) (by have := newMoov_total w.mvhd; unfold mvhd at this; omega)]
    rfl
  obtain ⟨hm, hv, hpl, m1, m2, v1, v2⟩ := newMoov_place w.mvhd F
  unfold appendRound
  rw [hrec]
  dsimp only
  rw [hpl, shiftAndAppend_eq]
  dsimp only
  rw [hr, show (tracks.map fun t => (t.resetChunkOffsets (BitVec.ofNat 64 (sub64 size prev))).trak [fourcc "moov"])
      = (B.map (·.shift size)).map (·.trak [fourcc "moov"]) by rw [← hr, List.map_map]; rfl]
  have hfit' : F + (moovTree w.mvhd (B.map (·.shift size))).total < 2 ^ 64 := by unfold moovSize at hfit; omega
  have hadj : adjustTree (appendUdtaBoxInfo (.node { type := fourcc "moov", data := .empty, header := some hm } [fourcc "moov"]
      ([.node { type := fourcc "mvhd", data := .mvhd w.mvhd, header := some hv } [fourcc "moov", fourcc "mvhd"] []] ++
        (B.map (·.shift size)).map (·.trak [fourcc "moov"])))) F = .ok ((moovTree w.mvhd (B.map (·.shift size))).place F) := by
    rw [appendUdtaBoxInfo]
    have herase : (Tree.node { type := fourcc "moov", data := .empty, header := some hm } [fourcc "moov"]
      (([.node { type := fourcc "mvhd", data := .mvhd w.mvhd, header := some hv } [fourcc "moov", fourcc "mvhd"] []] ++
        (B.map (·.shift size)).map (·.trak [fourcc "moov"])) ++ [udta [fourcc "moov"]])).erase =
        (moovTree w.mvhd (B.map (·.shift size))).erase := by
      unfold moovTree
      simp only [List.cons_append, List.nil_append, Tree.erase, Tree.eraseList]
    have hgood := moovTree_good w.mvhd (B.map (·.shift size))
    have hown : (Tree.node { type := fourcc "moov", data := .empty, header := some hm } [fourcc "moov"]
      (([.node { type := fourcc "mvhd", data := .mvhd w.mvhd, header := some hv } [fourcc "moov", fourcc "mvhd"] []] ++
        (B.map (·.shift size)).map (·.trak [fourcc "moov"])) ++ [udta [fourcc "moov"]])).All Box.OwnHeader := by
      have := good_own hgood
      unfold moovTree at this
      rw [Tree.All, Tree.AllList] at this
      rw [List.append_assoc, List.cons_append, List.nil_append, Tree.All, Tree.AllList]
      refine ⟨?_, ⟨?_, trivial⟩, this.2.2⟩
      · intro x hx; cases hx; exact ⟨m1, m2⟩
      · intro x hx; cases hx; exact ⟨v1, v2⟩
    have htot : (Tree.node { type := fourcc "moov", data := .empty, header := some hm } [fourcc "moov"]
      (([.node { type := fourcc "mvhd", data := .mvhd w.mvhd, header := some hv } [fourcc "moov", fourcc "mvhd"] []] ++
        (B.map (·.shift size)).map (·.trak [fourcc "moov"])) ++ [udta [fourcc "moov"]])).total =
        (moovTree w.mvhd (B.map (·.shift size))).total := by
      rw [← Tree.erase_total, herase, Tree.erase_total]
    unfold adjustTree
    rw [C12_header_independent _ _ F herase hown (good_own hgood) (by rw [htot]; exact hfit'), C12_layout _ F (good_own hgood) hfit']
  unfold setOffsetAndSize
  dsimp only
  rw [hF]
  simp only [initialised]
  rw [hadj]
  dsimp only
  unfold headSize getMoovSize
  simp only [initialised]
  rw [place_getSize]
  dsimp only
  have hu : u64 (u64 (F + (moovTree w.mvhd (B.map (·.shift size))).total) + w.getMdatHeaderSize) =
      F + moovSize w.mvhd B size + w.getMdatHeaderSize := by
    unfold moovSize u64
    rw [Nat.mod_eq_of_lt hfit']
    unfold moovSize at hfit
    exact Nat.mod_eq_of_lt hfit
  exact congrArg (fun n => Except.ok (({ w with ftyp_size := some F, moov := some ((moovTree w.mvhd (B.map (·.shift size))).place F) } :
    FaststartWriter), B.map (·.shift size), n)) hu

/-- The result of the loop: the position `S` of the sample data is consistent with the size of `moov`. -/
theorem appendLoop_ends {B : List Track} {F N H : Nat} (m : Mvhd) (hB : ∀ t ∈ B, OffsetsBelow N t)
    (hfin : ∀ t ∈ B, t.finalized = true) (hF2 : F + 200 < 2 ^ 64) (hfit : N + F + moovSize m B (2 ^ 32) + H < 2 ^ 64)
    (hN : N + 2 ^ 32 < 2 ^ 64) : ∀ (n : Nat) (w : FaststartWriter) (tracks : List Track) (prev size : Nat),
    w.ftyp_size = some F → w.mvhd = m → w.getMdatHeaderSize = H → AtRound B tracks prev size → N + size < 2 ^ 64 →
    size ≤ F + moovSize m B size + H →
    (B.length - B.countP (wide size) + 2 ≤ n ∨ (size = F + moovSize m B size + H ∧ 1 ≤ n)) →
    ∃ S, appendLoop n w tracks prev size = .ok ({ w with moov := some ((moovTree m (B.map (·.shift S))).place F) }, B.map (·.shift S)) ∧
      S = F + moovSize m B S + H ∧ N + S < 2 ^ 64 := by
  intro n
  induction n with
  | zero => intro w tracks prev size _ _ _ _ _ _ h; omega
  | succ n ih =>
    intro w tracks prev size h1 h2 h3 h4 h5 h6 h7
    have hmax := moovSize_max (m := m) hB h5 hN
    have hround := appendRound_eq h1 h4 hF2 (by rw [h2, h3]; omega)
    rw [appendLoop, hround]
    dsimp only
    rw [h2, h3]
    rw [if_neg (by omega)]
    by_cases he : size = F + moovSize m B size + H
    · rw [if_neg (fun h => h he)]
      exact ⟨size, rfl, he, h5⟩
    · rw [if_pos he]
      have h7' : B.length - B.countP (wide size) + 2 ≤ n + 1 := by
        rcases h7 with h7 | h7
        · exact h7
        · exact absurd h7.1 he
      have hlt : size < F + moovSize m B size + H := by omega
      have hnew : N + (F + moovSize m B size + H) < 2 ^ 64 := by omega
      have hmono := moovSize_mono (m := m) hB h6 hnew
      have hcount := countP_mono (wide size) (wide (F + moovSize m B size + H)) B fun t _ => wide_mono h6 t
      have hle := List.countP_le_length (p := wide (F + moovSize m B size + H)) (l := B)
      obtain ⟨S, s1, s2, s3⟩ := ih { w with moov := some ((moovTree m (B.map (·.shift size))).place F) } (B.map (·.shift size)) size
        (F + moovSize m B size + H) h1 h2 h3 (by
          unfold AtRound
          rw [List.map_map]
          apply List.map_congr_left
          intro t ht
          exact Track.shift_next (hfin t ht) _ _ (by omega) (by omega)) hnew (by omega) (by
          by_cases hc : B.countP (wide size) = B.countP (wide (F + moovSize m B size + H))
          · right
            refine ⟨?_, by omega⟩
            rw [← moovSize_eq (m := m) hB h5 hnew (hcount.2 hc)]
          · left
            have := hcount.1
            omega)
      exact ⟨S, s1, s2, s3⟩

/-- More rounds than needed do not matter. -/
theorem appendLoop_more (n : Nat) : ∀ (k : Nat) (w : FaststartWriter) (tracks : List Track) (prev size : Nat) r,
    appendLoop n w tracks prev size = .ok r → appendLoop (n + k) w tracks prev size = .ok r := by
  induction n with
  | zero => intro k w tracks prev size r h; rw [appendLoop] at h; cases h
  | succ n ih =>
    intro k w tracks prev size r h
    rw [show n + 1 + k = (n + k) + 1 by omega, appendLoop]
    rw [appendLoop] at h
    split at h
    · cases h
    · split at h
      · cases h
      · rename_i hns
        rw [if_neg hns]
        split at h
        · rename_i hne
          rw [if_pos hne]
          exact ih k _ _ _ _ r h
        · rename_i hne
          rw [if_neg hne]
          exact h

/-! ### Copying -/

theorem copyLoop_eq (m : Nat) : ∀ (f : CFile) (os : OStream), f.eof = false → f.pos ≤ f.content.length →
    f.content.length - f.pos < m * COPY_MDAT_DATA_BUFFER_SIZE →
    ∃ f', copyLoop (m + 1) f os = .ok (f', os.write (f.content.drop f.pos)) ∧ f'.content = f.content := by
  generalize hK0 : COPY_MDAT_DATA_BUFFER_SIZE = K
  have hK : 0 < K := by rw [← hK0]; decide
  induction m with
  | zero => intro f os _ _ h; omega
  | succ m ih =>
    intro f os he hp hn
    rw [copyLoop, if_neg (by rw [he]; decide)]
    simp only [CFile.fread, hK0]
    have hgot : (slice f.content f.pos K).length = min K (f.content.length - f.pos) := by
      simp [slice]
    by_cases hlt : f.content.length - f.pos < K
    · -- the last round
      have hdrop : slice f.content f.pos K = f.content.drop f.pos := by
        rw [slice, List.take_of_length_le (by simp; omega)]
      have heof : (f.eof || decide ((slice f.content f.pos K).length < K)) = true := by
        rw [hgot]; simp; right; omega
      rw [heof, hdrop]
      exact ⟨⟨f.content, f.pos + (f.content.drop f.pos).length, true⟩, by rw [copyLoop, if_pos rfl], rfl⟩
    · have heof : (f.eof || decide ((slice f.content f.pos K).length < K)) = false := by
        rw [hgot, he]; simp; omega
      have hlen : (slice f.content f.pos K).length = K := by rw [hgot]; omega
      rw [heof, hlen]
      rw [Nat.succ_mul] at hn
      obtain ⟨f', h1, h2⟩ := ih ⟨f.content, f.pos + K, false⟩
        (os.write (slice f.content f.pos K)) rfl (by dsimp only; omega) (by dsimp only; omega)
      refine ⟨f', ?_, h2⟩
      rw [h1, ← OStream.write_append]
      congr 3
      rw [slice, ← List.drop_drop, List.take_append_drop]

theorem copyMdatData_eq (w : FaststartWriter) :
    ∃ w', w.copyMdatData = .ok w' ∧ w'.os = w.os.write w.mdat.content := by
  have hK : 0 < COPY_MDAT_DATA_BUFFER_SIZE := by decide
  obtain ⟨f', h1, h2⟩ := copyLoop_eq (w.mdat.content.length / COPY_MDAT_DATA_BUFFER_SIZE + 1) w.mdat.rewind w.os rfl
    (Nat.zero_le _) (by
      show w.mdat.content.length - 0 < _
      rw [Nat.mul_comm]
      exact Nat.lt_mul_div_succ _ hK)
  unfold copyMdatData
  rw [h1]
  exact ⟨_, rfl, rfl⟩

/-! ### The state before the loop -/

/-- The writer between `writeFtypBox` and `appendTrakAndUdtaBoxInfo` when the sample data is `L`. -/
def Inv (f : Ftyp) (ts : BitVec 32) (dur now : BitVec 64) (w : FaststartWriter) (L : List Byte) : Prop :=
  w.os = ⟨(ftypTree f).encode, (ftypTree f).total⟩ ∧ w.mdat.content = L ∧ w.mdat.pos = L.length ∧ w.mdat_data_size = u64 L.length ∧
  w.ftyp_size = some (ftypTree f).total ∧ w.moov = none ∧ w.mvhd_timescale = ts ∧ w.mvhd_duration = dur ∧ w.time_from_epoch = now

theorem Inv.tell {f : Ftyp} {ts : BitVec 32} {dur now : BitVec 64} (w : FaststartWriter) (L : List Byte) (h : Inv f ts dur now w L) :
    MdatWriter.tellCurrentMdatOffset w = BitVec.ofNat 64 (0 + L.length) := by
  show BitVec.ofNat 64 w.mdat.pos = _
  rw [h.2.2.1, Nat.zero_add]

theorem Inv.add {f : Ftyp} {ts : BitVec 32} {dur now : BitVec 64} (w : FaststartWriter) (L d : List Byte) (h : Inv f ts dur now w L) :
    Inv f ts dur now (MdatWriter.addMdatData w d) (L ++ d) := by
  obtain ⟨h1, h2, h3, h4, h5, h6, h7, h8, h9⟩ := h
  have hw := OStream.write_end L d
  refine ⟨h1, ?_, ?_, ?_, h5, h6, h7, h8, h9⟩
  · show ((OStream.mk w.mdat.content w.mdat.pos).write d).data = _
    rw [h2, h3, hw]
  · show ((OStream.mk w.mdat.content w.mdat.pos).write d).pos = _
    rw [h2, h3, hw]
  · show u64 (w.mdat_data_size + d.length) = _
    rw [h4, List.length_append]
    simp [u64]

theorem Inv.step {f : Ftyp} {ts : BitVec 32} {dur now : BitVec 64} (w w' : FaststartWriter) (L : List Byte) (h : Inv f ts dur now w L)
    (hs : idStep w w') : Inv f ts dur now w' L := by
  subst hs
  exact h

theorem Inv.init (os : OStream) (hos : os.data = []) (f : Ftyp) (ts : BitVec 32) (dur now : BitVec 64)
    (h : (ftypTree f).total < 2 ^ 64) :
    ∃ w, (FaststartWriter.new os f ts dur now).writeFtypBox = .ok w ∧ Inv f ts dur now w [] := by
  unfold writeFtypBox
  rw [show (FaststartWriter.new os f ts dur now).ftyp = f from rfl, show (FaststartWriter.new os f ts dur now).os = os from rfl,
    writeFtyp_eq f os (by omega)]
  refine ⟨_, rfl, ?_, rfl, rfl, rfl, rfl, rfl, rfl, rfl, rfl⟩
  obtain ⟨d, q⟩ := os
  show (((OStream.mk d q).seekp 0).write (ftypTree f).encode) = _
  rw [write_zero d _ q hos, good_encode_length (ftypTree_good f)]

theorem Inv.header {f : Ftyp} {ts : BitVec 32} {dur now : BitVec 64} {w : FaststartWriter} {L : List Byte} (h : Inv f ts dur now w L)
    (hL : L.length < 2 ^ 64) : w.getMdatHeaderSize = Spec.headerSize L.length := by
  have hu : u64 L.length = L.length := Nat.mod_eq_of_lt hL
  unfold getMdatHeaderSize Spec.headerSize
  rw [h.2.2.2.1, hu]
  by_cases hc : L.length + 8 < 2 ^ 32
  · rw [if_pos hc, if_neg (by unfold UINT32_MAX; omega)]; rfl
  · rw [if_neg hc, if_pos (by unfold UINT32_MAX; omega)]; rfl

/-- The tracks at the end of the program, before their chunks are moved. -/
def finals (tracks : List Track) : List Track := tracks.map (·.finalize)

/-- `appendTrakAndUdtaBoxInfo`. -/
theorem append_eq {f : Ftyp} {ts : BitVec 32} {dur now : BitVec 64} {w : FaststartWriter} {L : List Byte} {tracks : List Track}
    (h : Inv f ts dur now w L) (hB : ∀ t ∈ finals tracks, OffsetsBelow L.length t) (hF : (ftypTree f).total < 2 ^ 63)
    (hfit : (ftypTree f).total + moovSize w.mvhd (finals tracks) (2 ^ 32) + (L.length + Spec.headerSize L.length) < 2 ^ 64)
    (hL : L.length + 2 ^ 32 < 2 ^ 64) :
    ∃ S, w.appendTrakAndUdtaBoxInfo tracks = .ok ({ w with moov := some ((moovTree w.mvhd ((finals tracks).map (·.shift S))).place
        (ftypTree f).total) }, (finals tracks).map (·.shift S)) ∧
      S = (ftypTree f).total + moovSize w.mvhd (finals tracks) S + Spec.headerSize L.length ∧ L.length + S < 2 ^ 64 ∧
      ∀ k, appendLoop (tracks.length + 2 + k) w tracks 0 ((ftypTree f).total + Spec.headerSize L.length) =
        w.appendTrakAndUdtaBoxInfo tracks := by
  have hH := h.header (by omega)
  have hhead : w.headSize = .ok ((ftypTree f).total + Spec.headerSize L.length) := by
    unfold headSize getMoovSize
    rw [h.2.2.2.2.1, h.2.2.2.2.2.1, hH]
    simp only [initialised, Nat.add_zero]
    unfold u64
    rw [Nat.mod_eq_of_lt (a := (ftypTree f).total) (by omega)]
    have := Tree.headerSize_cases L.length
    rw [Nat.mod_eq_of_lt (by omega)]
  obtain ⟨S, s1, s2, s3⟩ := appendLoop_ends (B := finals tracks) (F := (ftypTree f).total) (N := L.length) (H := Spec.headerSize L.length)
    w.mvhd hB (by
      intro t ht
      obtain ⟨u, -, rfl⟩ := List.mem_map.mp ht
      exact u.finalize_finalized) (by omega) (by omega) hL (tracks.length + 2) w tracks 0 ((ftypTree f).total + Spec.headerSize L.length)
      h.2.2.2.2.1 rfl hH (by
        unfold AtRound finals
        rw [List.map_map]
        apply List.map_congr_left
        intro t _
        have hsub : BitVec.ofNat 64 (sub64 ((ftypTree f).total + Spec.headerSize L.length) 0) =
            BitVec.ofNat 64 ((ftypTree f).total + Spec.headerSize L.length) := by
          apply BitVec.eq_of_toNat_eq
          simp only [BitVec.toNat_ofNat, sub64]
          omega
        rw [hsub, Track.reset_eq]
        rfl) (by omega) (by omega) (by
        left
        have : (finals tracks).length = tracks.length := List.length_map _
        omega)
  have hall : ∀ k, appendLoop (tracks.length + 2 + k) w tracks 0 ((ftypTree f).total + Spec.headerSize L.length) = .ok
      ({ w with moov := some ((moovTree w.mvhd ((finals tracks).map (·.shift S))).place (ftypTree f).total) },
        (finals tracks).map (·.shift S)) := fun k => appendLoop_more _ k _ _ _ _ _ s1
  have happ : w.appendTrakAndUdtaBoxInfo tracks = .ok
      ({ w with moov := some ((moovTree w.mvhd ((finals tracks).map (·.shift S))).place (ftypTree f).total) },
        (finals tracks).map (·.shift S)) := by
    unfold appendTrakAndUdtaBoxInfo
    rw [hhead]
    exact hall 1
  exact ⟨S, happ, s2, s3, fun k => by rw [hall k, happ]⟩

/-- The end of the program. -/
theorem finish_append {f : Ftyp} {ts : BitVec 32} {dur now : BitVec 64} {s : Session FaststartWriter} {L : List Byte}
    (h : Inv f ts dur now s.writer L) (hB : ∀ t ∈ finals s.tracks, OffsetsBelow L.length t) (hF : (ftypTree f).total < 2 ^ 63)
    (hfit : (ftypTree f).total + moovSize s.writer.mvhd (finals s.tracks) (2 ^ 32) + (L.length + Spec.headerSize L.length) < 2 ^ 64)
    (hL : L.length + 2 ^ 32 < 2 ^ 64) :
    ∃ w S, FaststartWriter.finish s = .ok w ∧
      w.os.data = Tree.encodeList (Spec.faststartFile f L (moovTree s.writer.mvhd ((finals s.tracks).map (·.shift S)))) ∧
      S = (ftypTree f).total + moovSize s.writer.mvhd (finals s.tracks) S + Spec.headerSize L.length ∧ L.length + S < 2 ^ 64 ∧
      s.writer.appendTrakAndUdtaBoxInfo s.tracks = .ok ({ s.writer with
        moov := some ((moovTree s.writer.mvhd ((finals s.tracks).map (·.shift S))).place (ftypTree f).total) }, (finals s.tracks).map (·.shift S)) := by
  obtain ⟨S, s1, s2, s3, -⟩ := append_eq h hB hF hfit hL
  have hH := h.header (by omega)
  have hu : u64 L.length = L.length := Nat.mod_eq_of_lt (by omega)
  have hE := good_encode_length (ftypTree_good f)
  have hgood := moovTree_good s.writer.mvhd ((finals s.tracks).map (·.shift S))
  have hME := good_encode_length hgood
  have hM : moovSize s.writer.mvhd (finals s.tracks) S = (moovTree s.writer.mvhd ((finals s.tracks).map (·.shift S))).total := rfl
  obtain ⟨h1, h2, h3, h4, h5, h6, h7, h8, h9⟩ := h
  unfold FaststartWriter.finish
  rw [s1]
  dsimp only
  unfold writeMoovBox
  dsimp only
  rw [h5]
  simp only [initialised]
  rw [setNextTrackID_place, show ({ s.writer.mvhd with next_track_id := s.writer.next_track_id } : Mvhd) = s.writer.mvhd from rfl,
    writeTree_place hgood _ _ (by rw [← hM]; omega), h1]
  have hos : (((OStream.mk (ftypTree f).encode (ftypTree f).total).seekp (ftypTree f).total).seekp (ftypTree f).total).write
      (moovTree s.writer.mvhd ((finals s.tracks).map (·.shift S))).encode =
      ⟨(ftypTree f).encode ++ (moovTree s.writer.mvhd ((finals s.tracks).map (·.shift S))).encode,
        (ftypTree f).total + (moovTree s.writer.mvhd ((finals s.tracks).map (·.shift S))).total⟩ := by
    have := OStream.write_end (ftypTree f).encode (moovTree s.writer.mvhd ((finals s.tracks).map (·.shift S))).encode
    rw [List.length_append, hE, hME] at this
    exact this
  rw [hos]
  dsimp only
  unfold writeMdatHeader getMoovSize
  simp only [initialised]
  rw [place_getSize]
  dsimp only
  have hu1 : u64 ((ftypTree f).total + (moovTree s.writer.mvhd ((finals s.tracks).map (·.shift S))).total) =
      (ftypTree f).total + (moovTree s.writer.mvhd ((finals s.tracks).map (·.shift S))).total := Nat.mod_eq_of_lt (by rw [← hM]; omega)
  have hg : ∀ (o : OStream) (m : Option Tree), FaststartWriter.getMdatHeaderSize { s.writer with ftyp_size := some (ftypTree f).total, os := o, moov := m } = Spec.headerSize L.length :=
    fun _ _ => hH
  rw [hu1, hg, h4, hu]
  have hu2 : u64 (L.length + Spec.headerSize L.length) = L.length + Spec.headerSize L.length := Nat.mod_eq_of_lt (by omega)
  rw [hu2, mdat_write L _ _ (by omega)]
  have hos2 : (((OStream.mk ((ftypTree f).encode ++ (moovTree s.writer.mvhd ((finals s.tracks).map (·.shift S))).encode)
      ((ftypTree f).total + (moovTree s.writer.mvhd ((finals s.tracks).map (·.shift S))).total)).seekp
        ((ftypTree f).total + (moovTree s.writer.mvhd ((finals s.tracks).map (·.shift S))).total)).seekp
        ((ftypTree f).total + (moovTree s.writer.mvhd ((finals s.tracks).map (·.shift S))).total)).write (mdatHeader L) =
      ⟨(ftypTree f).encode ++ (moovTree s.writer.mvhd ((finals s.tracks).map (·.shift S))).encode ++ mdatHeader L,
        ((ftypTree f).encode ++ (moovTree s.writer.mvhd ((finals s.tracks).map (·.shift S))).encode ++ mdatHeader L).length⟩ := by
    rw [← hE, ← hME, ← List.length_append]
    exact OStream.write_end _ _
  rw [hos2]
  obtain ⟨w, w1, w2⟩ := copyMdatData_eq { s.writer with
    ftyp_size := some (ftypTree f).total
    mdat_data_size := L.length
    moov := some ((moovTree s.writer.mvhd ((finals s.tracks).map (·.shift S))).place (ftypTree f).total)
    os := ⟨(ftypTree f).encode ++ (moovTree s.writer.mvhd ((finals s.tracks).map (·.shift S))).encode ++ mdatHeader L,
        ((ftypTree f).encode ++ (moovTree s.writer.mvhd ((finals s.tracks).map (·.shift S))).encode ++ mdatHeader L).length⟩ }
  refine ⟨w, S, w1, ?_, s2, s3, rfl⟩
  rw [w2]
  dsimp only
  rw [h2, OStream.write_end]
  unfold Spec.faststartFile
  have hm := mdat_encode L [fourcc "mdat"]
  simp only [Tree.encodeList, Spec.leaf, hm, ftypTree, List.append_nil, List.append_assoc]

/-- The end of the program. -/
theorem finish_eq {f : Ftyp} {ts : BitVec 32} {dur now : BitVec 64} {s : Session FaststartWriter} {L : List Byte}
    (h : Inv f ts dur now s.writer L) (hB : ∀ t ∈ finals s.tracks, OffsetsBelow L.length t) (hF : (ftypTree f).total < 2 ^ 63)
    (hfit : (ftypTree f).total + moovSize s.writer.mvhd (finals s.tracks) (2 ^ 32) + (L.length + Spec.headerSize L.length) < 2 ^ 64)
    (hL : L.length + 2 ^ 32 < 2 ^ 64) :
    ∃ w S, FaststartWriter.finish s = .ok w ∧
      w.os.data = Tree.encodeList (Spec.faststartFile f L (moovTree s.writer.mvhd ((finals s.tracks).map (·.shift S)))) ∧
      S = (ftypTree f).total + moovSize s.writer.mvhd (finals s.tracks) S + Spec.headerSize L.length ∧ L.length + S < 2 ^ 64 := by
  obtain ⟨w, S, h1, h2, h3, h4, -⟩ := finish_append h hB hF hfit hL
  exact ⟨w, S, h1, h2, h3, h4⟩

end FaststartWriter
end Mp4
