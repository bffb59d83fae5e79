import Verif.Props.Faststart
import Verif.Props.Writer
import Verif.Model.Order
import Verif.Lemmas.Order

/-! # C82: `appendTrakAndUdtaBoxInfo` called more than once -/

namespace Mp4

namespace FaststartWriter

theorem moovSize_shift (m : Mvhd) (B : List Track) (T X : Nat) : moovSize m (B.map (·.shift T)) X = moovSize m B (T + X) := by
  unfold moovSize
  rw [List.map_map]
  congr 2
  apply List.map_congr_left
  intro t _
  exact t.shift_shift T X

/-- One more call, when the chunks were moved by `T` so far. -/
theorem append_again {f : Ftyp} {ts : BitVec 32} {dur now : BitVec 64} {w : FaststartWriter} {L : List Byte} {B : List Track} {T : Nat}
    (h : Inv f ts dur now w L) (hB : ∀ t ∈ B, OffsetsBelow L.length t) (hfin : ∀ t ∈ B, t.finalized = true) (hF : (ftypTree f).total < 2 ^ 63)
    (hfit : T + 2 * ((ftypTree f).total + moovSize w.mvhd B (2 ^ 32) + (L.length + Spec.headerSize L.length)) + 2 ^ 33 < 2 ^ 64) :
    ∃ S, appendTrakAndUdtaBoxInfo { w with moov := some ((moovTree w.mvhd (B.map (·.shift T))).place (ftypTree f).total) }
        (B.map (·.shift T)) =
        .ok ({ w with moov := some ((moovTree w.mvhd (B.map (·.shift (T + S)))).place (ftypTree f).total) }, B.map (·.shift (T + S))) ∧
      S = (ftypTree f).total + moovSize w.mvhd B (T + S) + Spec.headerSize L.length ∧ L.length + (T + S) < 2 ^ 64 := by
  have hH := h.header (by omega)
  have hmax := moovSize_max (m := w.mvhd) (S := T) hB (by omega) (by omega)
  obtain ⟨X, hX⟩ : ∃ X, X = T + 2 ^ 32 := ⟨_, rfl⟩
  have hmax2 := moovSize_max (m := w.mvhd) (S := X) hB (by omega) (by omega)
  obtain ⟨M, hm⟩ : ∃ M, moovSize w.mvhd B (2 ^ 32) = M := ⟨_, rfl⟩
  rw [hm] at hfit hmax hmax2
  have hsz : moovSize w.mvhd B T = (moovTree w.mvhd (B.map (·.shift T))).total := rfl
  have hhead : headSize { w with moov := some ((moovTree w.mvhd (B.map (·.shift T))).place (ftypTree f).total) } =
      .ok ((ftypTree f).total + moovSize w.mvhd B T + Spec.headerSize L.length) := by
    unfold headSize getMoovSize
    dsimp only
    rw [h.2.2.2.2.1]
    simp only [initialised]
    rw [place_getSize]
    dsimp only
    rw [show getMdatHeaderSize { w with ftyp_size := some (ftypTree f).total, moov := some ((moovTree w.mvhd (B.map (·.shift T))).place (ftypTree f).total) } =
      Spec.headerSize L.length from hH, ← hsz]
    unfold u64
    rw [Nat.mod_eq_of_lt (a := (ftypTree f).total + moovSize w.mvhd B T) (by omega), Nat.mod_eq_of_lt (by omega)]
  have hB' : ∀ t ∈ B.map (·.shift T), OffsetsBelow (L.length + T) t := by
    intro t ht
    obtain ⟨u, hu, rfl⟩ := List.mem_map.mp ht
    intro c hc
    unfold Track.shift at hc
    dsimp only at hc
    obtain ⟨d, hd, rfl⟩ := List.mem_map.mp hc
    have := hB u hu d hd
    dsimp only
    rw [BitVec.toNat_add, BitVec.toNat_ofNat]
    omega
  obtain ⟨S, s1, s2, s3⟩ := appendLoop_ends (B := B.map (·.shift T)) (F := (ftypTree f).total) (N := L.length + T)
    (H := Spec.headerSize L.length) w.mvhd hB' (by
      intro t ht
      obtain ⟨u, hu, rfl⟩ := List.mem_map.mp ht
      exact hfin u hu) (by omega) (by rw [moovSize_shift, ← hX]; omega) (by omega) ((B.map (·.shift T)).length + 3)
      { w with moov := some ((moovTree w.mvhd (B.map (·.shift T))).place (ftypTree f).total) } (B.map (·.shift T)) 0
      ((ftypTree f).total + moovSize w.mvhd B T + Spec.headerSize L.length)
      h.2.2.2.2.1 rfl hH (by
        unfold AtRound
        apply List.map_congr_left
        intro t ht
        obtain ⟨u, hu, rfl⟩ := List.mem_map.mp ht
        have hsub : BitVec.ofNat 64 (sub64 ((ftypTree f).total + moovSize w.mvhd B T + Spec.headerSize L.length) 0) =
            BitVec.ofNat 64 ((ftypTree f).total + moovSize w.mvhd B T + Spec.headerSize L.length) := by
          apply BitVec.eq_of_toNat_eq
          simp only [BitVec.toNat_ofNat, sub64]
          omega
        rw [hsub, Track.reset_eq, Track.finalize_of_finalized (show (u.shift T).finalized = true from hfin u hu)]) (by omega) (by
        rw [moovSize_shift]
        have := moovSize_mono (m := w.mvhd) hB (S := T) (S' := T + ((ftypTree f).total + moovSize w.mvhd B T + Spec.headerSize L.length)) (by omega) (by omega)
        omega) (by left; omega)
  refine ⟨S, ?_, by rw [← moovSize_shift]; exact s2, by omega⟩
  unfold appendTrakAndUdtaBoxInfo
  rw [hhead]
  dsimp only
  rw [s1, List.map_map]
  have : B.map ((fun x => x.shift S) ∘ fun x => x.shift T) = B.map (·.shift (T + S)) := by
    apply List.map_congr_left
    intro t _
    exact t.shift_shift T S
  rw [this]

/-- Several more calls. -/
theorem appendTimes_eq {f : Ftyp} {ts : BitVec 32} {dur now : BitVec 64} {w : FaststartWriter} {L : List Byte} {B : List Track}
    (h : Inv f ts dur now w L) (hB : ∀ t ∈ B, OffsetsBelow L.length t) (hfin : ∀ t ∈ B, t.finalized = true) (hF : (ftypTree f).total < 2 ^ 63)
    (K : Nat) (hK : K = (ftypTree f).total + moovSize w.mvhd B (2 ^ 32) + (L.length + Spec.headerSize L.length)) :
    ∀ (n T S : Nat), S = (ftypTree f).total + moovSize w.mvhd B (T + S) + Spec.headerSize L.length →
      T + (n + 3) * K + 2 ^ 33 < 2 ^ 64 → S ≤ K →
    ∃ T' S', appendTimes n { w with moov := some ((moovTree w.mvhd (B.map (·.shift (T + S)))).place (ftypTree f).total) }
        (B.map (·.shift (T + S))) =
        .ok ({ w with moov := some ((moovTree w.mvhd (B.map (·.shift (T' + S')))).place (ftypTree f).total) }, B.map (·.shift (T' + S'))) ∧
      S' = (ftypTree f).total + moovSize w.mvhd B (T' + S') + Spec.headerSize L.length ∧
      T + n * ((ftypTree f).total + Spec.headerSize L.length) ≤ T' ∧ T' ≤ T + n * K ∧ S' ≤ K := by
  intro n
  induction n with
  | zero => intro T S hS _ hSK; exact ⟨T, S, rfl, hS, by omega, by omega, hSK⟩
  | succ n ih =>
    intro T S hS hT hSK
    rw [Nat.add_mul, Nat.add_mul] at hT
    obtain ⟨S1, h1, h2, h3⟩ := append_again (T := T + S) h hB hfin hF (by rw [← hK]; omega)
    have hS1 : S1 ≤ K := by
      have := moovSize_max (m := w.mvhd) (S := T + S + S1) hB h3 (by omega)
      omega
    obtain ⟨T', S', g1, g2, g3, g4, g5⟩ := ih (T + S) S1 h2 (by rw [Nat.add_mul]; omega) hS1
    refine ⟨T', S', ?_, g2, ?_, ?_, g5⟩
    · rw [appendTimes, h1]
      exact g1
    · rw [Nat.add_mul]; omega
    · rw [Nat.add_mul]; omega

/-- The end of the program after the boxes were laid out. -/
theorem writeOut_eq {f : Ftyp} {ts : BitVec 32} {dur now : BitVec 64} {w : FaststartWriter} {L : List Byte} {Ts : List Track}
    (h : Inv f ts dur now w L)
    (hfit : (ftypTree f).total + (moovTree w.mvhd Ts).total + (L.length + Spec.headerSize L.length) < 2 ^ 64) :
    ∃ w', (match writeMoovBox { w with moov := some ((moovTree w.mvhd Ts).place (ftypTree f).total) } with
      | .error e => .error e
      | .ok w =>
        match w.writeMdatHeader with
        | .error e => .error e
        | .ok w => w.copyMdatData : Except Err FaststartWriter) = .ok w' ∧
      w'.os.data = Tree.encodeList (Spec.faststartFile f L (moovTree w.mvhd Ts)) := by
  have hH := h.header (by omega)
  have hu : u64 L.length = L.length := Nat.mod_eq_of_lt (by omega)
  have hE := good_encode_length (ftypTree_good f)
  have hgood := moovTree_good w.mvhd Ts
  have hME := good_encode_length hgood
  obtain ⟨h1, h2, h3, h4, h5, h6, h7, h8, h9⟩ := h
  unfold writeMoovBox
  dsimp only
  rw [h5]
  simp only [initialised]
  rw [setNextTrackID_place, show ({ w.mvhd with next_track_id := w.next_track_id } : Mvhd) = w.mvhd from rfl,
    writeTree_place hgood _ _ (by omega), h1]
  have hos : (((OStream.mk (ftypTree f).encode (ftypTree f).total).seekp (ftypTree f).total).seekp (ftypTree f).total).write
      (moovTree w.mvhd Ts).encode =
      ⟨(ftypTree f).encode ++ (moovTree w.mvhd Ts).encode,
        (ftypTree f).total + (moovTree w.mvhd Ts).total⟩ := by
    have := OStream.write_end (ftypTree f).encode (moovTree w.mvhd Ts).encode
    rw [List.length_append, hE, hME] at this
    exact this
  rw [hos]
  dsimp only
  unfold writeMdatHeader getMoovSize
  simp only [initialised]
  rw [place_getSize]
  dsimp only
  have hu1 : u64 ((ftypTree f).total + (moovTree w.mvhd Ts).total) =
      (ftypTree f).total + (moovTree w.mvhd Ts).total := Nat.mod_eq_of_lt (by omega)
  have hg : ∀ (o : OStream) (m : Option Tree), FaststartWriter.getMdatHeaderSize { w with ftyp_size := some (ftypTree f).total, os := o, moov := m } = Spec.headerSize L.length :=
    fun _ _ => hH
  rw [hu1, hg, h4, hu]
  have hu2 : u64 (L.length + Spec.headerSize L.length) = L.length + Spec.headerSize L.length := Nat.mod_eq_of_lt (by omega)
  rw [hu2, mdat_write L _ _ (by omega)]
  have hos2 : (((OStream.mk ((ftypTree f).encode ++ (moovTree w.mvhd Ts).encode)
      ((ftypTree f).total + (moovTree w.mvhd Ts).total)).seekp
        ((ftypTree f).total + (moovTree w.mvhd Ts).total)).seekp
        ((ftypTree f).total + (moovTree w.mvhd Ts).total)).write (mdatHeader L) =
      ⟨(ftypTree f).encode ++ (moovTree w.mvhd Ts).encode ++ mdatHeader L,
        ((ftypTree f).encode ++ (moovTree w.mvhd Ts).encode ++ mdatHeader L).length⟩ := by
    rw [← hE, ← hME, ← List.length_append]
    exact OStream.write_end _ _
  rw [hos2]
  obtain ⟨w', w1, w2⟩ := copyMdatData_eq { w with
    ftyp_size := some (ftypTree f).total
    mdat_data_size := L.length
    moov := some ((moovTree w.mvhd Ts).place (ftypTree f).total)
    os := ⟨(ftypTree f).encode ++ (moovTree w.mvhd Ts).encode ++ mdatHeader L,
        ((ftypTree f).encode ++ (moovTree w.mvhd Ts).encode ++ mdatHeader L).length⟩ }
  refine ⟨w', w1, ?_⟩
  rw [w2]
  dsimp only
  rw [h2, OStream.write_end]
  unfold Spec.faststartFile
  have hm := mdat_encode L [fourcc "mdat"]
  simp only [Tree.encodeList, Spec.leaf, hm, ftypTree, List.append_nil, List.append_assoc]

end FaststartWriter

/-- **C82** `FaststartWriter`: for every program, calling `appendTrakAndUdtaBoxInfo` `n` more times with the same tracks (none throws) gives
a file whose chunk offsets are all too large by one and the same number, 0 for `n` = 0 and at least `n` times the sizes of `ftyp` and of
the header of `mdat` otherwise: the sample data is found only if it is called exactly once. -/
theorem C82_faststart (os : OStream) (hos : os.data = []) (f : Ftyp) (ts : BitVec 32) (dur now : BitVec 64) (calls : List Call)
    (hf : f.compatible_brands.length < 2 ^ 32) (n : Nat) :
    ∃ s es, FaststartWriter.session os f ts dur now calls = .ok s ∧ Spec.Expands [] calls es ∧
      ((n + 3) * FaststartWriter.sizeBound s f (Spec.mdat es) < 2 ^ 63 →
       ∃ w moov tooFar, FaststartWriter.finishTimes (n + 1) s = .ok w ∧
        w.os.data = Tree.encodeList (Spec.faststartFile f (Spec.mdat es) moov) ∧
        (Spec.traks moov).map Spec.trakOffsets = (s.tracks.map fun t =>
          some (t.finalize.chunk_infos.map fun c =>
            c.offset.toNat + ((Spec.leaf "ftyp" (.ftyp f)).total + moov.total + Spec.headerSize (Spec.mdat es).length) + tooFar)) ∧
        (n = 0 → tooFar = 0) ∧
        n * ((Spec.leaf "ftyp" (.ftyp f)).total + Spec.headerSize (Spec.mdat es).length) ≤ tooFar) := by
  obtain ⟨w1, s, es, hw1, hinv, -, hses, he1, he2, he3, hP⟩ := faststart_any os hos f ts dur now calls hf
  refine ⟨s, es, hses, he1, ?_⟩
  intro hfit
  have hfit1 : FaststartWriter.sizeBound s f (Spec.mdat es) < 2 ^ 63 := by
    refine Nat.lt_of_le_of_lt ?_ hfit
    exact Nat.le_mul_of_pos_left _ (by omega)
  obtain ⟨c0, c1, c2, c3, c4⟩ := faststart_fit hinv he2 hfit1
  have hbound : FaststartWriter.sizeBound s f (Spec.mdat es) = (ftypTree f).total +
      moovSize s.writer.mvhd (FaststartWriter.finals s.tracks) (2 ^ 32) + ((Spec.mdat es).length + Spec.headerSize (Spec.mdat es).length) := by
    unfold FaststartWriter.sizeBound
    rw [faststartFile_total, moovAt_eq]
    unfold moovSize
    omega
  rw [hbound] at hfit
  obtain ⟨S, s1, s2, s3, -⟩ := FaststartWriter.append_eq hP c1 c2 c3 c4
  have hfin : ∀ t ∈ FaststartWriter.finals s.tracks, t.finalized = true := by
    intro t ht
    obtain ⟨u, -, rfl⟩ := List.mem_map.mp ht
    exact u.finalize_finalized
  have hmx := moovSize_max (m := s.writer.mvhd) c1 s3 c4
  obtain ⟨T', S', g1, g2, g3, g4, g5⟩ := FaststartWriter.appendTimes_eq hP c1 hfin c2 _ rfl n 0 S (by rw [Nat.zero_add]; exact s2)
    (by omega) (by omega)
  rw [Nat.zero_add] at g1 g3 g4
  generalize hK : (ftypTree f).total + moovSize s.writer.mvhd (FaststartWriter.finals s.tracks) (2 ^ 32) +
    ((Spec.mdat es).length + Spec.headerSize (Spec.mdat es).length) = K at *
  have hnK : n * K + 3 * K < 2 ^ 63 := by rw [← Nat.add_mul]; exact hfit
  have hmx2 := moovSize_max (m := s.writer.mvhd) (S := T' + S') c1 (by omega) c4
  obtain ⟨w, k1, k2⟩ := FaststartWriter.writeOut_eq (Ts := (FaststartWriter.finals s.tracks).map (·.shift (T' + S'))) hP (by
    have : (moovTree s.writer.mvhd ((FaststartWriter.finals s.tracks).map (·.shift (T' + S')))).total =
      moovSize s.writer.mvhd (FaststartWriter.finals s.tracks) (T' + S') := rfl
    omega)
  refine ⟨w, _, T', ?_, k2, ?_, ?_, g3⟩
  · unfold FaststartWriter.finishTimes
    rw [FaststartWriter.appendTimes, s1]
    dsimp only
    rw [g1]
    exact k1
  · rw [traks_moovTree, List.map_map, FaststartWriter.finals, List.map_map, List.map_map]
    apply List.map_congr_left
    intro t ht
    simp only [Function.comp_apply]
    rw [trakOffsets_trak]
    obtain ⟨q1, q2⟩ := (c0 t ht).finalize
    have hval : ∀ c ∈ t.finalize.chunk_infos, (c.offset + BitVec.ofNat 64 (T' + S')).toNat = c.offset.toNat + (T' + S') := by
      intro c hc
      have := q1 c hc
      rw [BitVec.toNat_add, BitVec.toNat_ofNat]
      omega
    have hsort : (t.finalize.shift (T' + S')).chunk_infos.Pairwise fun a b => a.offset.toNat ≤ b.offset.toNat := by
      unfold Track.shift
      dsimp only
      rw [List.pairwise_map]
      refine List.Pairwise.imp_of_mem ?_ q2
      intro a b ha hb hab
      dsimp only
      rw [hval a ha, hval b hb]
      omega
    rw [(C34_offsets _ hsort).1]
    congr 1
    rw [show (t.finalize.shift (T' + S')).chunk_infos =
      t.finalize.chunk_infos.map fun c => { c with offset := c.offset + BitVec.ofNat 64 (T' + S') } from rfl, List.map_map]
    apply List.map_congr_left
    intro c hc
    simp only [Function.comp_apply]
    rw [hval c hc]
    have : (moovTree s.writer.mvhd ((s.tracks.map (fun x => x.finalize)).map (·.shift (T' + S')))).total =
      moovSize s.writer.mvhd (FaststartWriter.finals s.tracks) (T' + S') := rfl
    have hft : (Spec.leaf "ftyp" (.ftyp f)).total = (ftypTree f).total := rfl
    rw [hft, this]
    omega
  · rintro rfl
    omega

/-! ### Only the last call counts -/

theorem traks_erase (t : Tree) : (Spec.traks t).map Tree.erase = Spec.traks t.erase := by
  obtain ⟨b, p, ls⟩ := t
  have he : ∀ l : List Tree, Tree.eraseList l = l.map Tree.erase := by
    intro l
    induction l with
    | nil => rfl
    | cons x l ih => rw [Tree.eraseList, ih]; rfl
  have hb : ∀ x : Tree, x.erase.box.type = x.box.type := by intro x; obtain ⟨b, p, ls⟩ := x; rfl
  unfold Spec.traks
  rw [Tree.erase, Tree.leafs, Tree.leafs, he, List.filter_map]
  congr 1
  apply List.filter_congr
  intro x _
  simp only [Function.comp_apply, hb]

theorem eraseList_map (l : List Tree) : Tree.eraseList l = l.map Tree.erase := by
  induction l with
  | nil => rfl
  | cons x l ih => rw [Tree.eraseList, ih]; rfl

theorem appendRound_length {w w' : FaststartWriter} {tracks ts : List Track} {prev size n : Nat}
    (h : w.appendRound tracks prev size = .ok (w', ts, n)) : ts.length = tracks.length := by
  have key : ∀ (d : Nat) (t : Tree), (FaststartWriter.shiftAndAppend d tracks t).1.length = tracks.length := by
    intro d t
    obtain ⟨b, p, ls⟩ := t
    rw [FaststartWriter.shiftAndAppend_eq]
    exact List.length_map _
  unfold FaststartWriter.appendRound at h
  split at h
  · cases h
  · split at h
    · cases h
    · dsimp only at h
      split at h
      · cases h
      · split at h
        · cases h
        · cases h
          exact key _ _

/-- One round leaves exactly the boxes of the given tracks. -/
theorem appendRound_traks {w w' : FaststartWriter} {tracks ts : List Track} {prev size n : Nat}
    (h : w.appendRound tracks prev size = .ok (w', ts, n)) :
    ∃ moov, w'.moov = some moov ∧ (Spec.traks moov).map Tree.erase = ts.map fun t => (t.trak [fourcc "moov"]).erase := by
  unfold FaststartWriter.appendRound FaststartWriter.recreateMoovBoxInfo at h
  cases hF : w.ftyp_size with
  | none =>
    unfold FaststartWriter.setOffsetAndSize at h
    simp only [hF, initialised] at h
    cases h
  | some F =>
    have key : ∀ (u : FaststartWriter) (t : Tree), u.moov = some t → u.ftyp_size = some F →
        ∃ t', u.setOffsetAndSize = .ok { u with moov := some t' } ∧ t'.erase = t.erase := by
      intro u t hu hf
      obtain ⟨t', h1, h2, -⟩ := adjustTree_any t F
      refine ⟨t', ?_, h2⟩
      unfold FaststartWriter.setOffsetAndSize
      rw [hu, hf]
      simp only [initialised]
      rw [h1]
    obtain ⟨t1, h1, h2⟩ := key { w with moov := some (newMoov (newMvhd w.time_from_epoch w.mvhd_timescale w.mvhd_duration w.next_track_id)) }
      _ rfl hF
    rw [h1] at h
    dsimp only at h
    obtain ⟨b, p, ls⟩ := t1
    rw [FaststartWriter.shiftAndAppend_eq] at h
    dsimp only at h
    obtain ⟨t2, g1, g2⟩ := key { w with
      moov := some (appendUdtaBoxInfo (.node b p (ls ++ tracks.map fun t => (t.resetChunkOffsets (BitVec.ofNat 64 (sub64 size prev))).trak p))) }
      _ rfl hF
    rw [g1] at h
    dsimp only at h
    split at h
    · cases h
    · cases h
      refine ⟨t2, rfl, ?_⟩
      have hn : newMoov (newMvhd w.time_from_epoch w.mvhd_timescale w.mvhd_duration w.next_track_id) =
        .node { type := fourcc "moov", data := .empty } [fourcc "moov"]
          [.node { type := fourcc "mvhd", data := .mvhd (newMvhd w.time_from_epoch w.mvhd_timescale w.mvhd_duration w.next_track_id) }
            [fourcc "moov", fourcc "mvhd"] []] := rfl
      rw [hn, Tree.erase, Tree.erase] at h2
      injection h2 with e1 e2 e3
      subst e2
      have hm : (appendUdtaBoxInfo (.node b [fourcc "moov"] (ls ++ tracks.map fun t =>
          (t.resetChunkOffsets (BitVec.ofNat 64 (sub64 size prev))).trak [fourcc "moov"]))).erase =
          (moovTree (newMvhd w.time_from_epoch w.mvhd_timescale w.mvhd_duration w.next_track_id)
            (tracks.map fun t => t.resetChunkOffsets (BitVec.ofNat 64 (sub64 size prev)))).erase := by
        unfold appendUdtaBoxInfo moovTree
        rw [Tree.erase, Tree.erase, e1]
        have : ∀ x y : List Tree, Tree.eraseList (x ++ y) = Tree.eraseList x ++ Tree.eraseList y := by
          intro x y
          rw [eraseList_map, eraseList_map, eraseList_map, List.map_append]
        rw [List.append_assoc, this, e3, ← this, List.map_map]
        rfl
      rw [traks_erase, g2, hm, ← traks_erase, traks_moovTree, List.map_map]
      rfl

/-- **C82** A call of `appendTrakAndUdtaBoxInfo` of `FaststartWriter` that returns leaves a `moov` with exactly the boxes of the tracks
given to this call, whatever was appended before: nothing is added to what is there. -/
theorem C82_faststart_replaces (w w' : FaststartWriter) (tracks ts : List Track)
    (h : w.appendTrakAndUdtaBoxInfo tracks = .ok (w', ts)) :
    ts.length = tracks.length ∧
    ∃ moov, w'.moov = some moov ∧ (Spec.traks moov).map Tree.erase = ts.map fun t => (t.trak [fourcc "moov"]).erase := by
  unfold FaststartWriter.appendTrakAndUdtaBoxInfo at h
  cases hs : w.headSize with
  | error e => rw [hs] at h; cases h
  | ok size =>
    rw [hs] at h
    dsimp only at h
    suffices ∀ (n : Nat) (w : FaststartWriter) (tracks : List Track) (prev size : Nat),
        FaststartWriter.appendLoop n w tracks prev size = .ok (w', ts) → ts.length = tracks.length ∧
        ∃ moov, w'.moov = some moov ∧ (Spec.traks moov).map Tree.erase = ts.map fun t => (t.trak [fourcc "moov"]).erase from
      this _ _ _ _ _ h
    intro n
    induction n with
    | zero => intro w tracks prev size h; rw [FaststartWriter.appendLoop] at h; cases h
    | succ n ih =>
      intro w tracks prev size h
      rw [FaststartWriter.appendLoop] at h
      cases hr : w.appendRound tracks prev size with
      | error e => rw [hr] at h; cases h
      | ok r =>
        obtain ⟨w1, t1, m⟩ := r
        have hl := appendRound_length hr
        rw [hr] at h
        dsimp only at h
        by_cases c1 : m < size
        · rw [if_pos c1] at h; cases h
        · rw [if_neg c1] at h
          by_cases c2 : size = m
          · rw [if_neg (fun h => h c2)] at h
            cases h
            exact ⟨hl, appendRound_traks hr⟩
          · rw [if_pos c2] at h
            have := ih _ _ _ _ h
            exact ⟨this.1.trans hl, this.2⟩

/-! ### SimpleWriter -/

theorem simple_appendTimes : ∀ (n : Nat) (w : SimpleWriter) (tracks : List Track) (a : List Tree),
    w.moov = .node { type := fourcc "moov", data := .empty } [fourcc "moov"] a →
    (SimpleWriter.appendTimes n w tracks).1.moov = .node { type := fourcc "moov", data := .empty } [fourcc "moov"]
      (a ++ (List.replicate n ((tracks.map fun t => t.finalize.trak [fourcc "moov"]) ++ [udta [fourcc "moov"]])).flatten) := by
  intro n
  induction n with
  | zero => intro w tracks a h; rw [SimpleWriter.appendTimes, h]; simp
  | succ n ih =>
    intro w tracks a h
    have h1 : (w.appendTrakAndUdtaBoxInfo tracks).2 = tracks.map (·.finalize) := by
      unfold SimpleWriter.appendTrakAndUdtaBoxInfo
      rw [h, appendTracks_eq]
    have h2 : (w.appendTrakAndUdtaBoxInfo tracks).1.moov = .node { type := fourcc "moov", data := .empty } [fourcc "moov"]
        (a ++ ((tracks.map fun t => t.finalize.trak [fourcc "moov"]) ++ [udta [fourcc "moov"]])) := by
      unfold SimpleWriter.appendTrakAndUdtaBoxInfo
      rw [h, appendTracks_eq]
      dsimp only
      rw [appendUdtaBoxInfo, List.append_assoc]
    have h3 : ((tracks.map (·.finalize)).map fun t => t.finalize.trak [fourcc "moov"]) =
        tracks.map fun t => t.finalize.trak [fourcc "moov"] := by
      rw [List.map_map]
      apply List.map_congr_left
      intro t _
      simp only [Function.comp_apply]
      rw [Track.finalize_of_finalized t.finalize_finalized]
    rw [SimpleWriter.appendTimes, h1, ih _ _ _ h2, h3, List.replicate_succ, List.flatten_cons, List.append_assoc]

/-- **C82** `SimpleWriter`: `n` calls of `appendTrakAndUdtaBoxInfo` with the same tracks leave, after every program, `mvhd` followed by `n`
copies of the boxes that one call would leave: every track, with its id, `n` times, and `n` `udta` boxes. -/
theorem C82_simple (os : OStream) (hos : os.data = []) (f : Ftyp) (ts : BitVec 32) (dur now : BitVec 64) (calls : List Call)
    (hf : f.compatible_brands.length < 2 ^ 32) (n : Nat) :
    ∃ s, SimpleWriter.session os f ts dur now calls = .ok s ∧
      ∃ mvhd traks udta, (SimpleWriter.appendTimes 1 s.writer s.tracks).1.moov.leafs = mvhd :: (traks ++ [udta]) ∧
        traks.length = s.tracks.length ∧ Spec.traks (SimpleWriter.appendTimes 1 s.writer s.tracks).1.moov = traks ∧
        (SimpleWriter.appendTimes n s.writer s.tracks).1.moov.leafs = mvhd :: (List.replicate n (traks ++ [udta])).flatten := by
  obtain ⟨w1, s, es, hw1, -, -, hses, -, -, -, hP, hm⟩ := simple_any os hos f ts dur now calls hf
  refine ⟨s, hses, ?_⟩
  have hmoov : s.writer.moov = .node { type := fourcc "moov", data := .empty } [fourcc "moov"]
      [.node { type := fourcc "mvhd", data := .mvhd (newMvhd now ts dur 1) } [fourcc "moov", fourcc "mvhd"] []] := hP.2.2.2
  have h := fun k => simple_appendTimes k s.writer s.tracks _ hmoov
  refine ⟨.node { type := fourcc "mvhd", data := .mvhd (newMvhd now ts dur 1) } [fourcc "moov", fourcc "mvhd"] [],
    s.tracks.map fun t => t.finalize.trak [fourcc "moov"], udta [fourcc "moov"], ?_, List.length_map _, ?_, ?_⟩
  · rw [h 1]; simp [Tree.leafs]
  · have : (SimpleWriter.appendTimes 1 s.writer s.tracks).1.moov = SimpleWriter.moovOf s := rfl
    rw [this, hm, traks_moovTree, List.map_map]
    rfl
  · rw [h n]; rfl

end Mp4
