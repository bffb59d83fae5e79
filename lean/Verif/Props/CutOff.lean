import Verif.Spec.CutOff
import Verif.Props.ReadBack

/-! # C72: a file that is cut off inside a box is rejected -/

namespace Mp4
open SimpleReader

theorem Tree.TiledList.le : ∀ (ts : List Tree) (m e : Nat), Tree.TiledList ts m e → m ≤ e := by
  intro ts
  induction ts with
  | nil => intro m e h; exact Nat.le_of_eq h
  | cons t ts ih =>
    intro m e h
    obtain ⟨m', q1, q2⟩ := h
    have := ih _ _ q2
    obtain ⟨b, p, ls⟩ := t
    obtain ⟨h, -, q3, q4, -⟩ := q1
    omega

/-- A long header that is cut off is not accepted. -/
theorem read_box_header_long_cut (d : List Byte) (o : Nat) (t : BoxType) (rest : List Byte) (hlen : d.length < 2 ^ 64)
    (h : d.drop o = beBytes 4 1 ++ BoxType.bytes t ++ rest) (hr : rest.length < 8) : ∃ e, read_box_header ⟨d, o⟩ = .error e := by
  have hl := congrArg List.length h
  simp [beBytes_length, BoxType.bytes] at hl
  simp only [beBytes, BoxType.bytes, List.cons_append, List.nil_append] at h
  simp only [read_box_header, h, SMALL_HEADER_SIZE, LARGE_HEADER_SIZE, be_to_uint32_ofNat]
  rw [sub64_eq (by omega) hlen, if_neg (by omega), if_neg (by omega), if_neg (by decide), if_pos (by decide)]
  have hlt : d.length - o < LARGE_HEADER_SIZE := by show d.length - o < 16; omega
  exact ⟨_, if_pos hlt⟩

theorem rawBox_length (t : BoxType) (c : List Byte) : (Spec.rawBox t c).length = c.length + Spec.headerSize c.length := by
  rw [Spec.rawBox, List.length_append, Tree.boxHeader_length, Nat.add_comm]

theorem cut_off_aux (d : List Byte) (hl : d.length < 2 ^ 63) (t : BoxType) (c : List Byte) (k : Nat)
    (hc : c.length + Spec.headerSize c.length < 2 ^ 64) (h0 : 0 < k) (hk : k < (Spec.rawBox t c).length) :
    ∀ (bs : List (BoxType × List Byte)) (ts : List Tree) (o : Nat),
      d.drop o = Spec.rawBoxes bs ++ (Spec.rawBox t c).take k →
      Tree.TiledList ts o d.length → ∀ h : ∀ h ∈ Tree.headersList ts, read_box_header ⟨d, h.offset⟩ = .ok h, False := by
  intro bs
  induction bs with
  | nil =>
    intro ts o hd ht hr
    rw [Spec.rawBoxes, List.nil_append] at hd
    have hlen := congrArg List.length hd
    rw [List.length_drop, List.length_take, Nat.min_eq_left (by omega)] at hlen
    cases ts with
    | nil => have : o = d.length := ht; omega
    | cons u us =>
      obtain ⟨m, h1, h2⟩ := ht
      have hm := Tree.TiledList.le _ _ _ h2
      obtain ⟨b, p, ls⟩ := u
      obtain ⟨h, q1, q2, q3, q4, -⟩ := h1
      have hreal := hr h (by simp [Tree.headersList, Tree.headers, q1])
      rw [q2] at hreal
      obtain ⟨-, r1, r2, -⟩ := read_box_header_ok d o h (by omega) hreal
      rw [rawBox_length] at hk
      have hbl := Tree.boxHeader_length c.length t
      by_cases hs : Spec.headerSize c.length ≤ k
      · have := read_header_at d o c.length t (c.take (k - Spec.headerSize c.length)) hl hc (by
          rw [hd, Spec.rawBox, List.take_append, hbl, List.take_of_length_le (by omega)])
        rw [hreal] at this
        cases this
        dsimp only at q3
        omega
      · rcases r1 with r1 | r1
        · have hb : ¬ c.length + 8 < 2 ^ 32 := by
            intro hb
            rw [Spec.headerSize, if_pos hb] at hs
            omega
          have h16 : Spec.headerSize c.length = 16 := by rw [Spec.headerSize, if_neg hb]
          obtain ⟨e, he⟩ := read_box_header_long_cut d o t ((beBytes 8 (c.length + 16) ++ c).take (k - 8)) (by omega) (by
            rw [hd, Spec.rawBox, h16, Spec.boxHeader, if_neg (by omega), List.append_assoc, List.append_assoc, List.append_assoc,
              ← List.append_assoc (beBytes 4 1), List.take_append]
            have : (beBytes 4 1 ++ BoxType.bytes t).length = 8 := by simp [beBytes_length, BoxType.bytes]
            rw [this, List.take_of_length_le (by omega), List.append_assoc]) (by
            rw [List.length_take]; omega)
          rw [hreal] at he; cases he
        · have : Spec.headerSize c.length ≤ 16 := by unfold Spec.headerSize; split <;> omega
          omega
  | cons x bs ih =>
    intro ts o hd ht hr
    obtain ⟨t', c'⟩ := x
    rw [Spec.rawBoxes, List.append_assoc] at hd
    have hlen := congrArg List.length hd
    rw [List.length_drop, List.length_append, List.length_append, List.length_take, Nat.min_eq_left (by omega), rawBox_length] at hlen
    cases ts with
    | nil => have : o = d.length := ht; omega
    | cons u us =>
      obtain ⟨m, h1, h2⟩ := ht
      obtain ⟨b, p, ls⟩ := u
      obtain ⟨h, q1, q2, q3, q4, -⟩ := h1
      have hreal := hr h (by simp [Tree.headersList, Tree.headers, q1])
      rw [q2] at hreal
      have := read_header_at d o c'.length t' (c' ++ (Spec.rawBoxes bs ++ (Spec.rawBox t c).take k)) hl (by omega) (by
        rw [hd, Spec.rawBox, List.append_assoc])
      rw [hreal] at this
      cases this
      dsimp only at q3
      have hd' := drop_append_of hd
      rw [rawBox_length, q3] at hd'
      exact ih us m hd' h2 (fun h hh => hr h (by simp [Tree.headersList, hh]))

/-- **C72** A file made of boxes of any types and contents, cut off inside one of them (within its header or its content): reading it
always ends with an exception, never with boxes. -/
theorem C72_cut_off (sr : SimpleReader) (bs : List (BoxType × List Byte)) (t : BoxType) (c : List Byte) (k : Nat)
    (hd : sr.data = Spec.rawBoxes bs ++ (Spec.rawBox t c).take k) (h0 : 0 < k) (hk : k < (Spec.rawBox t c).length)
    (hl : (Spec.rawBoxes bs ++ Spec.rawBox t c).length < 2 ^ 63) :
    ∃ vs e, sr.read = some ⟨vs, .error e⟩ := by
  rw [List.length_append, rawBox_length] at hl
  have hlen : sr.data.length < 2 ^ 63 := by
    rw [hd, List.length_append, List.length_take, rawBox_length]; omega
  obtain ⟨⟨vs, res⟩, hr, -⟩ := C28_terminates sr hlen
  cases res with
  | error e => exact ⟨vs, e, hr⟩
  | ok ts =>
    exfalso
    obtain ⟨h1, h2⟩ := C30_tiling sr hlen vs ts hr
    have h3 := (C29_headers_of_the_file sr hlen _ hr).1
    dsimp only at h3
    rw [h2] at h3
    exact cut_off_aux sr.data hlen t c k (by omega) h0 hk bs ts 0 (by rw [List.drop_zero]; exact hd) h1 h3

/-- The bytes of a tree are a box in this sense. -/
theorem encode_rawBox (t : Tree) (h : t.All Tree.Encodable) : ∃ c, t.encode = Spec.rawBox t.box.type c ∧ t.total = (Spec.rawBox t.box.type c).length := by
  obtain ⟨b, p, ls⟩ := t
  have hin : (Tree.node b p ls).inner = (Layout.payload b.data ++ Tree.encodeList ls).length := by
    rw [List.length_append, Tree.payload_length b h.1, Tree.encodeList_length ls h.2, Tree.inner]
  have h1 : (Tree.node b p ls).total = (Tree.node b p ls).inner + Spec.headerSize (Tree.node b p ls).inner := rfl
  refine ⟨Layout.payload b.data ++ Tree.encodeList ls, ?_, ?_⟩
  · rw [Tree.encode, Spec.rawBox, List.append_assoc, h1, hin]
    rfl
  · rw [rawBox_length, h1, hin]

theorem encodeList_rawBoxes : ∀ (ts : List Tree), Tree.AllList Tree.Encodable ts → ∃ bs, Tree.encodeList ts = Spec.rawBoxes bs
  | [], _ => ⟨[], rfl⟩
  | t :: ts, h => by
    obtain ⟨c, hc, -⟩ := encode_rawBox t h.1
    obtain ⟨bs, hb⟩ := encodeList_rawBoxes ts h.2
    exact ⟨(t.box.type, c) :: bs, by rw [Tree.encodeList, Spec.rawBoxes, hc, hb]⟩

theorem cut_tree (sr : SimpleReader) (ts : List Tree) (t : Tree) (k : Nat) (h1 : Tree.AllList Tree.Encodable ts) (h2 : t.All Tree.Encodable)
    (hd : sr.data = Tree.encodeList ts ++ t.encode.take k) (h0 : 0 < k) (hk : k < t.total)
    (hl : Tree.totalList ts + t.total < 2 ^ 63) : ∃ vs e, sr.read = some ⟨vs, .error e⟩ := by
  obtain ⟨c, hc, hc2⟩ := encode_rawBox t h2
  obtain ⟨bs, hb⟩ := encodeList_rawBoxes ts h1
  have hbl := Tree.encodeList_length ts h1
  rw [hc, hb] at hd
  refine C72_cut_off sr bs t.box.type c k hd h0 (by omega) ?_
  rw [List.length_append, ← hb, hbl, ← hc2]
  omega

/-- **C72** The same for what `BoxInfo::write` writes (C13): trees of boxes the classes can write, cut off inside the last. -/
theorem C72_cut_off_tree (sr : SimpleReader) (ts : List Tree) (t : Tree) (k : Nat)
    (hw : Tree.AllList (fun b => (∃ n, b.data.writeData.res = .ok n) ∧ ∀ m : Mdhd, b.data = .mdhd m → LangOk m.language) (ts ++ [t]))
    (hd : sr.data = Tree.encodeList ts ++ t.encode.take k) (h0 : 0 < k) (hk : k < t.total)
    (hl : Tree.totalList (ts ++ [t]) < 2 ^ 63) :
    ∃ vs e, sr.read = some ⟨vs, .error e⟩ := by
  have he : Tree.AllList Tree.Encodable (ts ++ [t]) := by
    refine Tree.AllList.mono (fun b hb => ⟨?_, ?_⟩) _ hw
    · obtain ⟨n, hn⟩ := hb.1
      exact BoxData.writable_of_ok b.data hn
    · have hl := hb.2
      cases hd : b.data <;> first | exact hl _ hd | trivial
  have split : ∀ (l : List Tree), Tree.AllList Tree.Encodable (l ++ [t]) →
      Tree.AllList Tree.Encodable l ∧ t.All Tree.Encodable ∧ Tree.totalList (l ++ [t]) = Tree.totalList l + t.total := by
    intro l
    induction l with
    | nil => intro h; exact ⟨trivial, h.1, by rw [List.nil_append, Tree.totalList_cons, Nat.add_comm]⟩
    | cons u l ih =>
      intro h
      obtain ⟨a, b, c⟩ := ih h.2
      exact ⟨⟨h.1, a⟩, b, by rw [List.cons_append, Tree.totalList_cons, Tree.totalList_cons, c]; omega⟩
  obtain ⟨h1, h2, h3⟩ := split ts he
  exact cut_tree sr ts t k h1 h2 hd h0 hk (by omega)

/-- A case: an empty `free` box and an `mdat` box with 2 of its 3 bytes. -/
example (file : Bool) (env : Nat → Env) : ∃ vs e, ({ file, env, data := [0, 0, 0, 8, 0x66, 0x72, 0x65, 0x65, 0, 0, 0, 11, 0x6d, 0x64, 0x61, 0x74, 1, 2] }
    : SimpleReader).read = some ⟨vs, .error e⟩ :=
  C72_cut_off _ [(⟨0x66, 0x72, 0x65, 0x65⟩, [])] ⟨0x6d, 0x64, 0x61, 0x74⟩ [1, 2, 3] 10 (show [0, 0, 0, 8, 0x66, 0x72, 0x65, 0x65, 0, 0, 0, 11, 0x6d, 0x64, 0x61, 0x74, 1, 2] = _ by decide +kernel) (by decide) (by decide +kernel) (by decide +kernel)

end Mp4
