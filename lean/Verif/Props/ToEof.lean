import Verif.Props.Stored

/-! # C73: a last box of size 0 extends to the end of the file -/

namespace Mp4
open SimpleReader

attribute [local irreducible] BoxData.readData fourcc R.runC read_box_header

/-- Boxes, then whatever the loop does behind them. -/
theorem readLoop_then (sr : SimpleReader) (hl : sr.data.length < 2 ^ 63) : ∀ (ts ts' : List Tree) (path : List BoxType)
    (wave : Bool) (o : Nat) (rest : List Byte), sr.data.drop o = Tree.encodeList ts ++ rest →
    Tree.AllList Tree.Encodable ts → Tree.ReadsAsList sr path wave o ts ts' → ∀ done limit, done + Tree.totalList ts ≤ limit → limit < 2 ^ 64 →
    ∃ N, ∀ f, N ≤ f → ∀ n vs us e, readLoop (sr.readBox f path wave) limit n (done + Tree.totalList ts) (o + Tree.totalList ts)
      = some ⟨vs, .ok (us, e)⟩ →
      readLoop (sr.readBox f path wave) limit (n + ts.length) done o = some ⟨Tree.headersList ts' ++ vs, .ok (ts' ++ us, e)⟩
  | [], [], path, wave, o, rest, hd, ha, hr, done, limit, hb, h64 => ⟨0, fun f _ n vs us e h => h⟩
  | t :: ts, t' :: ts', path, wave, o, rest, hd, ha, hr, done, limit, hb, h64 => by
    rw [Tree.encodeList, List.append_assoc] at hd
    rw [Tree.totalList_cons] at hb
    obtain ⟨N1, h1⟩ := readBox_back sr hl t t' path wave o _ hd ha.1 hr.1
    have hd2 := drop_append_of hd
    rw [Tree.encode_length t ha.1] at hd2
    obtain ⟨N2, h2⟩ := readLoop_then sr hl ts ts' path wave (o + t.total) rest hd2 ha.2 hr.2 (done + t.total) limit (by omega) h64
    refine ⟨max N1 N2, fun f hf n vs us e h => ?_⟩
    have hpos : 0 < t.total := by
      rcases Tree.headerSize_cases t.inner with h | h <;> rw [Tree.total, h] <;> omega
    have hu : u64 (done + t.total) = done + t.total := Nat.mod_eq_of_lt (by omega)
    rw [List.length_cons, ← Nat.add_assoc, readLoop, if_pos (by omega), h1 f (by omega)]
    dsimp only
    rw [Tree.totalList_cons, ← Nat.add_assoc, ← Nat.add_assoc] at h
    rw [hu, h2 f (by omega) n vs us e h]
    simp [Tree.headersList]
  | [], _ :: _, _, _, _, _, _, _, hr, _, _, _, _ => hr.elim
  | _ :: _, [], _, _, _, _, _, _, hr, _, _, _, _ => hr.elim

/-- The last box. -/
theorem readBox_toEof (sr : SimpleReader) (hl : sr.data.length < 2 ^ 63) (t : BoxType) (c : List Byte) (path : List BoxType) (wave : Bool)
    (o : Nat) (hd : sr.data.drop o = beBytes 4 0 ++ BoxType.bytes t ++ c) (hm : sr.ReadsWith t .opaq) (f : Nat) :
    sr.readBox (f + 2) path wave o = some ⟨[⟨o, 8 + c.length, 8, t, true⟩],
      .ok (8 + c.length, .node ⟨sr.typeRead t, .opaq ⟨c⟩, some ⟨o, 8 + c.length, 8, t, true⟩⟩ (path ++ [sr.typeRead t]) [], o + 8 + c.length)⟩ := by
  have hlen := congrArg List.length hd
  simp only [List.length_drop, List.length_append, beBytes_length, BoxType.bytes, List.length_cons, List.length_nil] at hlen
  have hh := (read_box_header_spec sr.data o t (by omega)).2.2 c hd
  rw [show sr.data.length - o = 8 + c.length by omega] at hh
  have hds : BoxHeader.getDataSize ⟨o, 8 + c.length, 8, t, true⟩ = c.length := by
    show sub64 (8 + c.length) 8 = _
    rw [sub64_eq (by omega) (by omega)]; omega
  have hss : slice sr.data (o + 8) c.length = c := by
    refine slice_of_drop (rest := []) ?_ rfl
    have h8 : (beBytes 4 0 ++ BoxType.bytes t).length = 8 := by simp [beBytes_length, BoxType.bytes]
    have := drop_append_of hd
    rw [h8] at this
    rw [this, List.append_nil]
  have hc : sr.readContent wave ⟨o, 8 + c.length, 8, t, true⟩ =
      .ok (⟨sr.typeRead t, .opaq ⟨c⟩, some ⟨o, 8 + c.length, 8, t, true⟩⟩, c.length) := by
    have hrt : RoundTripEnd (BoxData.opaq ⟨c⟩).writeData (BoxData.readData (sr.env o) t wave .opaq) (.opaq ⟨c⟩) := by
      have := (C27_opaque ⟨c⟩).1.wrap BoxData.opaq
      unfold BoxData.readData
      exact this
    have he : Tree.Encodable ⟨t, .opaq ⟨c⟩, none⟩ := ⟨trivial, trivial⟩
    obtain ⟨s, hs⟩ := decode_run (env := sr.env o) (wave := wave) (b := ⟨t, .opaq ⟨c⟩, none⟩) (leaf := True) he (.inr ⟨trivial, hrt⟩) [] (fun _ => rfl)
    rw [List.append_nil] at hs
    have hp : Layout.payload (.opaq ⟨c⟩) = c := by
      show toBytes (bytesBits c) = c
      exact toBytes_bytesBits c
    dsimp only at hs
    rw [hp] at hs
    obtain ⟨r, hr⟩ := runC_of_run _ _ _ _ hs
    rw [readContent]
    dsimp only
    have e1 : sub64 sr.data.length o = sr.data.length - o := sub64_eq (by omega) (by omega)
    have e2 : sub64 (sr.data.length - o) 8 = c.length := by rw [sub64_eq (by omega) (by omega)]; omega
    rw [e1, e2, hds, if_neg (by omega), hss, classOf_eq sr t _ hm]
    dsimp only
    have hk : (BoxData.opaq ⟨c⟩).kind = .opaq := rfl
    rw [hk] at hr
    rw [readData_type sr _ _ _ _ hm, hr]
    dsimp only
    have hg : (BoxData.opaq ⟨c⟩).getDataSize = c.length := rfl
    rw [hg, Nat.mul_div_cancel_left _ (by decide), if_neg]
    rintro ⟨-, h⟩
    omega
  rw [readBox_succ, sr.body_ok hh hc, hds, readLoop, if_neg (by omega)]

/-- **C73** A file made of boxes as in `C61` and a last box whose size field is 0, of a type with opaque content or of a type that is not
registered: reading it returns the boxes and, as the last one, a box with all the bytes up to the end of the file. -/
theorem C73_to_the_end (sr : SimpleReader) (ts : List Tree) (t : BoxType) (c : List Byte)
    (hd : sr.data = Tree.encodeList ts ++ (beBytes 4 0 ++ BoxType.bytes t ++ c)) (hl : sr.data.length < 2 ^ 63)
    (hs : Tree.SurvivingList sr false 0 ts)
    (hm : sr.map.find t = none ∨ ∃ d, sr.map.find t = some d ∧ d.factory = .opaq) :
    let h : BoxHeader := ⟨Tree.totalList ts, 8 + c.length, 8, t, true⟩
    let last : Tree := .node ⟨if (sr.map.find t).isSome then t else fourcc "unsu", .opaq ⟨c⟩, some h⟩
      [if (sr.map.find t).isSome then t else fourcc "unsu"] []
    sr.read = some ⟨Tree.headersList (Tree.readBackList sr [] 0 ts) ++ [h], .ok (Tree.readBackList sr [] 0 ts ++ [last])⟩ := by
  intro h last
  have hw := survivingList_writable sr ts false 0 hs
  have he : Tree.AllList Tree.Encodable ts := by
    refine Tree.AllList.mono (fun b hb => ⟨?_, ?_⟩) ts hw
    · obtain ⟨n, hn⟩ := hb.1
      exact BoxData.writable_of_ok b.data hn
    · have hl := hb.2
      cases hd : b.data <;> first | exact hl _ hd | trivial
  have hel := Tree.encodeList_length ts he
  have hlen : sr.data.length = Tree.totalList ts + (8 + c.length) := by
    rw [hd, List.length_append, hel]; simp [beBytes_length, BoxType.bytes]; omega
  have hm' : sr.ReadsWith t .opaq := by
    rcases hm with hm | hm
    · exact .inr ⟨hm, rfl⟩
    · exact .inl hm
  have hrest : sr.data.drop (Tree.totalList ts) = beBytes 4 0 ++ BoxType.bytes t ++ c := by
    rw [hd, ← hel, List.drop_left]
  obtain ⟨N, hN⟩ := readLoop_then sr hl ts _ [] false 0 _ (by rw [List.drop_zero]; exact hd) he (readsAsList_readBack sr ts [] false 0 hs) 0
    sr.data.length (by omega) (by omega)
  obtain ⟨r, h1, h2, -⟩ := C28_terminates sr hl
  have h3 := h2 (N + ts.length)
  have hbox := readBox_toEof sr hl t c [] false (Tree.totalList ts) hrest hm' (sr.data.length + (N + ts.length))
  have key := hN (sr.data.length + 2 + (N + ts.length)) (by omega) (sr.data.length + 2 + N) [h] [last] (Tree.totalList ts + 8 + c.length) (by
    obtain ⟨k, hk⟩ : ∃ k, sr.data.length + 2 + N = k + 2 := ⟨sr.data.length + N, by omega⟩
    rw [hk, Nat.zero_add, readLoop, if_pos (by omega),
      show sr.data.length + 2 + (N + ts.length) = sr.data.length + (N + ts.length) + 2 by omega, hbox]
    dsimp only
    have hu : u64 (Tree.totalList ts + (8 + c.length)) = Tree.totalList ts + (8 + c.length) := Nat.mod_eq_of_lt (by omega)
    rw [hu, readLoop, if_neg (by omega)]
    rfl)
  rw [readWith, show sr.data.length + 2 + (N + ts.length) = sr.data.length + 2 + N + ts.length by omega] at h3
  rw [show sr.data.length + 2 + (N + ts.length) = sr.data.length + 2 + N + ts.length by omega] at key
  rw [key] at h3
  rw [h1, ← h3]

/-- A case: an `mdat` box of size 0 with three bytes. -/
example (file : Bool) (env : Nat → Env) :
    ({ file, env, data := [0, 0, 0, 0, 0x6d, 0x64, 0x61, 0x74, 1, 2, 3] } : SimpleReader).read =
      some ⟨[⟨0, 11, 8, fourcc "mdat", true⟩], .ok [.node ⟨fourcc "mdat", .opaq ⟨[1, 2, 3]⟩, some ⟨0, 11, 8, fourcc "mdat", true⟩⟩
        [fourcc "mdat"] []]⟩ := by
  have ht : fourcc "mdat" = ⟨0x6d, 0x64, 0x61, 0x74⟩ := by decide +kernel
  have hf : (stdBoxMap.find (fourcc "mdat")).map (·.factory) = some .opaq := by decide +kernel
  obtain ⟨x, hx1, hx2⟩ := Option.map_eq_some_iff.mp hf
  have := C73_to_the_end { file, env, data := [0, 0, 0, 0, 0x6d, 0x64, 0x61, 0x74, 1, 2, 3] } [] (fourcc "mdat") [1, 2, 3]
    (by rw [ht]; rfl) (by show (11 : Nat) < _; decide) trivial (.inr ⟨x, hx1, hx2⟩)
  dsimp only at this
  rw [hx1] at this
  exact this

end Mp4
