import Verif.Lemmas.FaultsSession

/-! # The order in which the writers store their bytes -/

namespace Mp4

theorem storesAt_length (l : List Byte) : ∀ o, (storesAt o l).length = l.length := by
  induction l with
  | nil => intro o; rfl
  | cons b l ih => intro o; rw [storesAt, List.length_cons, List.length_cons, ih]

theorem storesAt_take (l : List Byte) : ∀ o n, (storesAt o l).take n = storesAt o (l.take n) := by
  induction l with
  | nil => intro o n; simp [storesAt]
  | cons b l ih =>
    intro o n
    cases n with
    | zero => rfl
    | succ n => rw [storesAt, List.take_succ_cons, List.take_succ_cons, storesAt, ih]

theorem storeByte_write (file : List Byte) (o : Nat) (b : Byte) : storeByte file (o, b) = ((OStream.mk file o).write [b]).data := by
  unfold storeByte OStream.write
  rw [if_neg (show ¬ [b] = [] by simp)]
  dsimp only
  by_cases h : o < file.length
  · rw [if_pos h]
    rw [List.set_eq_take_append_cons_drop, if_pos h, Nat.sub_eq_zero_of_le (by omega)]
    simp
  · rw [if_neg h, List.take_of_length_le (by simp; omega), List.drop_eq_nil_of_le (by simp; omega), List.append_nil]

/-- Storing the bytes of `l` from position `o` on is the `write` of the stream. -/
theorem stores_write (l : List Byte) : ∀ (file : List Byte) (o : Nat),
    (storesAt o l).foldl storeByte file = ((OStream.mk file o).write l).data := by
  induction l with
  | nil => intro file o; rw [OStream.write_nil]; rfl
  | cons b l ih =>
    intro file o
    rw [storesAt, List.foldl_cons, ih, storeByte_write, show b :: l = [b] ++ l from rfl, OStream.write_append]
    have : (OStream.mk file o).write [b] = ⟨((OStream.mk file o).write [b]).data, o + 1⟩ := by
      unfold OStream.write; rw [if_neg (by simp)]; rfl
    rw [← this]

theorem fileAfter_storesAt (l : List Byte) (n : Nat) : fileAfter (storesAt 0 l) n = l.take n := by
  rw [fileAfter, storesAt_take, stores_write]
  have := OStream.write_end [] (l.take n)
  rw [show ([] : List Byte).length = 0 from rfl, List.nil_append] at this
  rw [this]

theorem write_gap (E l : List Byte) (g : Nat) :
    ((OStream.mk E (E.length + g)).write l).data = if l = [] then E else E ++ List.replicate g 0 ++ l := by
  unfold OStream.write
  split
  · rfl
  · dsimp only
    rw [Nat.add_sub_cancel_left, List.take_of_length_le (by simp), List.drop_eq_nil_of_le (by omega), List.append_nil]

theorem write_over (A B C l : List Byte) (h : l.length ≤ B.length) :
    ((OStream.mk (A ++ B ++ C) A.length).write l).data = A ++ l ++ (B.drop l.length ++ C) := by
  unfold OStream.write
  split
  · rename_i h0
    subst h0
    simp
  · dsimp only
    rw [Nat.sub_eq_zero_of_le (by simp)]
    rw [List.replicate_zero, List.append_nil, List.append_assoc A B C, List.take_left]
    rw [← List.drop_drop, List.drop_left, List.drop_append_of_le_length h]

/-- The stores of a program with `SimpleWriter`: what is in the file after each of them. -/
theorem interrupted_eq (E G L M : List Byte) (hG : G.length = 16) (n : Nat) :
    fileAfter (storesAt 0 E ++ storesAt (E.length + 16) L ++ storesAt E.length G ++ storesAt (E.length + 16 + L.length) M) n =
      Spec.interrupted E G L M n := by
  have hE : (storesAt 0 E).foldl storeByte [] = E := by
    have := fileAfter_storesAt E E.length
    rw [fileAfter, List.take_of_length_le (by rw [storesAt_length]; omega), List.take_length] at this
    exact this
  unfold fileAfter Spec.interrupted
  simp only [List.take_append, storesAt_take, storesAt_length, List.length_append, List.foldl_append]
  by_cases h1 : n ≤ E.length
  · rw [if_pos h1, Nat.sub_eq_zero_of_le h1, Nat.sub_eq_zero_of_le (show n ≤ E.length + L.length by omega),
      Nat.sub_eq_zero_of_le (show n ≤ E.length + L.length + G.length by omega)]
    simp only [List.take_zero, storesAt, List.foldl_nil]
    have := fileAfter_storesAt E n
    rw [fileAfter, storesAt_take] at this
    exact this
  rw [if_neg h1, List.take_of_length_le (show E.length ≤ n by omega), hE]
  by_cases h2 : n ≤ E.length + L.length
  · rw [if_pos h2, Nat.sub_eq_zero_of_le h2, Nat.sub_eq_zero_of_le (show n ≤ E.length + L.length + G.length by omega)]
    simp only [List.take_zero, storesAt, List.foldl_nil]
    rw [stores_write, write_gap, if_neg]
    intro h
    have := congrArg List.length h
    rw [List.length_take, List.length_nil] at this
    omega
  rw [if_neg h2, List.take_of_length_le (show L.length ≤ n - E.length by omega), stores_write L, write_gap]
  have hmid : ∀ k, k ≤ 16 → (storesAt E.length (G.take k)).foldl storeByte (if L = [] then E else E ++ List.replicate 16 0 ++ L) =
      E ++ G.take k ++ (if L = [] then [] else List.replicate (16 - k) 0 ++ L) := by
    intro k hk
    rw [stores_write]
    by_cases hL : L = []
    · rw [if_pos hL, if_pos hL, OStream.write_end, List.append_nil]
    · rw [if_neg hL, if_neg hL, write_over _ _ _ _ (by simp; omega), List.drop_replicate, List.length_take, hG, Nat.min_eq_left hk]
  by_cases h3 : n ≤ E.length + L.length + 16
  · rw [if_pos h3, Nat.sub_eq_zero_of_le (show n ≤ E.length + L.length + G.length by omega)]
    simp only [List.take_zero, storesAt, List.foldl_nil]
    rw [Nat.sub_add_eq, hmid _ (by omega)]
  rw [if_neg h3, List.take_of_length_le (show G.length ≤ n - (E.length + L.length) by omega)]
  have hfull := hmid 16 (Nat.le_refl _)
  rw [List.take_of_length_le (by omega)] at hfull
  rw [hfull, stores_write]
  have hsame : E ++ G ++ (if L = [] then [] else List.replicate (16 - 16) (0 : Byte) ++ L) = E ++ G ++ L := by
    split
    · rename_i h; rw [h]
    · rfl
  rw [hsame]
  have hend := OStream.write_end (E ++ G ++ L) (M.take (n - (E.length + L.length + G.length)))
  rw [show (E ++ G ++ L).length = E.length + 16 + L.length by simp [hG]; omega] at hend
  rw [hend, hG, show n - (E.length + L.length + 16) = n - E.length - L.length - 16 by omega]

/-! ### SimpleWriter -/

/-- What all calls keep, on a device that accepts everything: the stores behind `o`. -/
def FaultySimple.logSim (base : List (Nat × Byte)) (os0 : OStream) : Sim FaultySimple SimpleWriter where
  Q x w := x.dev = Device.fine ∧ x.s.os = w.os ∧ ∃ L, x.s.log = base ++ storesAt os0.pos L ∧ w.os = os0.write L
  T _ _ t t' := t = t'
  codec h := by rw [h]
  add {x w t t'} hq ht ts d k := by
    obtain ⟨h1, h2, L, h3, h4⟩ := hq
    subst ht
    have hc : x.s.copyOut Device.fine d = x.s.stored d := FStream.copyOut_accepted _ _ _ (fun _ _ => rfl)
    refine ⟨⟨h1, ?_, L ++ d, ?_, ?_⟩, ?_⟩
    · show (x.s.copyOut x.dev d).os = w.os.write d
      rw [h1, hc, ← h2]; rfl
    · show (x.s.copyOut x.dev d).log = _
      rw [h1, hc]
      simp only [FStream.stored]
      rw [h3, h2, h4, OStream.write_pos, storesAt_append, List.append_assoc]
    · show w.os.write d = _
      rw [h4, OStream.write_append]
    · simp only [Track.addMdatData, MdatWriter.tellCurrentMdatOffset, FaultySimple.tellCurrentMdatOffset,
        SimpleWriter.tellCurrentMdatOffset]
      rw [h2]
  other _ h _ := h
  id hq := hq
  idT _ h := h
  new _ _ := rfl
  configure h c := by rw [h]
  terminate h := by rw [h]
  mediaTime h m := by rw [h]

theorem fine_never {s : FStream} {N : Nat} : ¬ Fails Device.fine s N := by
  rintro ⟨t, -, ⟨p, -, h⟩ | ⟨p, h⟩⟩ <;> cases h

theorem fine_clean {s s' : FStream} {o : Nat} {l : List Byte} (h : Wrote Device.fine s o l s') : Clean s o l s' := by
  rcases h.2.2 with h | ⟨-, t, p, -, -, -, h⟩
  · exact h
  · cases h

/-- The stores up to the last call on the tracks. -/
theorem FaultySimple.session_log (os : OStream) (hos : os.data = []) (f : Ftyp) (ts : BitVec 32) (dur now : BitVec 64)
    (calls : List Call) (hf : f.compatible_brands.length < 2 ^ 32) (s : Session FaultySimple) (s0 : Session SimpleWriter)
    (hs : FaultySimple.session Device.fine os f ts dur now calls = .ok s) (hs0 : SimpleWriter.session os f ts dur now calls = .ok s0) :
    ∃ L, s.writer.s.log = storesAt 0 (ftypTree f).encode ++ storesAt ((ftypTree f).total + 16) L ∧
      s0.writer.os = (OStream.mk (ftypTree f).encode ((ftypTree f).total + 16)).write L := by
  have hft := ftyp_small f hf
  have hE := good_encode_length (ftypTree_good f)
  unfold FaultySimple.session FaultySimple.writeFtypBox at hs
  unfold SimpleWriter.session SimpleWriter.writeFtypBox at hs0
  rw [show (SimpleWriter.new os f ts dur now).ftyp = f from rfl, show (SimpleWriter.new os f ts dur now).os = os from rfl,
    writeFtyp_eq f os (by omega)] at hs0
  rw [show (FaultySimple.new Device.fine os f ts dur now).w.ftyp = f from rfl,
    show (FaultySimple.new Device.fine os f ts dur now).s = { os } from rfl,
    show (FaultySimple.new Device.fine os f ts dur now).dev = Device.fine from rfl] at hs
  dsimp only at hs hs0
  have hu : u64 ((ftypTree f).total + LARGE_HEADER_SIZE) = (ftypTree f).total + 16 := Nat.mod_eq_of_lt (by unfold LARGE_HEADER_SIZE; omega)
  rw [hu] at hs0
  rcases writeFtypF_cases Device.fine f { os } rfl (by omega) with ⟨e, he, hF⟩ | ⟨s', h1, h2, -⟩
  · exact absurd hF fine_never
  rw [h1] at hs
  dsimp only at hs
  rw [hu] at hs
  have hc := fine_clean h2
  have hseek : s'.seekp Device.fine ((ftypTree f).total + 16) = { s' with os := s'.os.seekp ((ftypTree f).total + 16), tries := s'.tries + 1 } := by
    rw [FStream.seekp, if_pos h2.1]; rfl
  rw [FStream.check_ok (by rw [hseek]; exact h2.1), hseek] at hs
  dsimp only at hs
  cases hs
  cases hs0
  have hos1 : ((os.seekp 0).write (ftypTree f).encode) = ⟨(ftypTree f).encode, (ftypTree f).total⟩ := by
    have := OStream.write_end [] (ftypTree f).encode
    rw [show os.seekp 0 = ⟨[], ([] : List Byte).length⟩ by unfold OStream.seekp; rw [hos]; rfl, this, List.nil_append, hE]
  have key := (FaultySimple.logSim (storesAt 0 (ftypTree f).encode) ⟨(ftypTree f).encode, (ftypTree f).total + 16⟩).calls calls
    (s := ⟨[], (FaultySimple.mk Device.fine
        { SimpleWriter.new os f ts dur now with ftyp_size := some (ftypTree f).total }
        { s' with os := s'.os.seekp ((ftypTree f).total + 16), tries := s'.tries + 1 })⟩)
        (s' := ⟨[], { SimpleWriter.new os f ts dur now with
          ftyp_size := some (ftypTree f).total
          os := ((os.seekp 0).write (ftypTree f).encode).seekp ((ftypTree f).total + 16) }⟩)
    (by
      refine ⟨rfl, ?_, [], ?_, ?_⟩
      · dsimp only; rw [hc.1]
      · dsimp only
        rw [hc.2.2]
        simp [storesAt]
      · dsimp only
        rw [hos1, OStream.write_nil]; rfl)
    ⟨rfl, fun i t t' h => by simp at h⟩
  obtain ⟨⟨-, -, L, k1, k2⟩, -⟩ := key
  exact ⟨L, k1, k2⟩

/-- Two such streams are equal only when the same was written behind the gap. -/
theorem write_gap_inj {E L L' : List Byte} {g : Nat} (h : (OStream.mk E (E.length + g)).write L = (OStream.mk E (E.length + g)).write L') :
    L = L' := by
  have hd := congrArg OStream.data h
  have hp := congrArg OStream.pos h
  simp only [OStream.write_pos, Nat.add_left_cancel_iff] at hp
  rw [write_gap, write_gap] at hd
  by_cases hL : L = []
  · subst hL
    exact (List.eq_nil_of_length_eq_zero (by simpa using hp.symm)).symm
  · have hL' : L' ≠ [] := by
      intro h0
      subst h0
      exact hL (List.eq_nil_of_length_eq_zero (by simpa using hp))
    rw [if_neg hL, if_neg hL'] at hd
    exact List.append_cancel_left hd

end Mp4
