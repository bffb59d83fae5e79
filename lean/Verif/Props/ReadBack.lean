import Verif.Props.Reader
import Verif.Props.Tree
import Verif.Props.RoundTripA
import Verif.Props.RoundTripB

/-! # C31: reading back what was written -/

namespace Mp4
open SimpleReader

attribute [local irreducible] BoxData.readData fourcc R.runC read_box_header

theorem read_header_at (d : List Byte) (o n : Nat) (t : BoxType) (rest : List Byte) (hl : d.length < 2 ^ 63)
    (hn : n + Spec.headerSize n < 2 ^ 64)
    (h : d.drop o = Spec.boxHeader (n + Spec.headerSize n) (BoxType.bytes t) ++ rest) :
    read_box_header ⟨d, o⟩ = .ok ⟨o, n + Spec.headerSize n, Spec.headerSize n, t, false⟩ := by
  have spec := read_box_header_spec d o t (by omega)
  by_cases hc : n + 8 < 2 ^ 32
  · have hs : Spec.headerSize n = 8 := by rw [Spec.headerSize, if_pos hc]
    rw [hs] at h hn ⊢
    rw [Spec.boxHeader, if_pos hc] at h
    exact spec.1 (n + 8) rest h (by omega) hc
  · have hs : Spec.headerSize n = 16 := by rw [Spec.headerSize, if_neg hc]
    rw [hs] at h hn ⊢
    rw [Spec.boxHeader, if_neg (by omega)] at h
    exact spec.2.1 (n + 16) rest h (by omega)

theorem runC_of_run {α : Type} (p : R α) (d : List Byte) (a : α) (s : List Bool)
    (h : p.run d (bytesBits d) = .ok (a, s)) : ∃ r, p.runC (Reader.new ⟨d, 0⟩) = .ok (a, r) := by
  have := R.runC_run p (Reader.new ⟨d, 0⟩) (Reader.new_inv _ (by simp))
  have hrem : (Reader.new ⟨d, 0⟩).rem = bytesBits d := by simp [Reader.rem, Reader.new, natBits]
  rw [hrem] at this
  have hd : (Reader.new ⟨d, 0⟩).is.data = d := rfl
  rw [hd, h] at this
  obtain ⟨r, hr, -⟩ := this
  exact ⟨r, hr⟩

theorem slice_of_drop {d p rest : List Byte} {o n : Nat} (h : d.drop o = p ++ rest) (hn : n = p.length) : slice d o n = p := by
  rw [slice, h, hn, List.take_left']
  rfl

theorem drop_append_of {d p rest : List Byte} {o : Nat} (h : d.drop o = p ++ rest) : d.drop (o + p.length) = rest := by
  rw [← List.drop_drop, h, List.drop_left]

theorem decode_run {env : Env} {wave : Bool} {b : Box} {leaf : Prop} {data : BoxData} (he : Tree.Encodable b)
    (h : Tree.DecodesTo env wave b leaf data) (tail : List Byte) (ht : leaf → tail = []) :
    ∃ s, (BoxData.readData env b.type wave b.data.kind).run (Layout.payload b.data ++ tail)
      (bytesBits (Layout.payload b.data ++ tail)) = .ok ((8 * b.data.getDataSize, data), s) := by
  have hw := BoxData.write_eq b.data he.1 he.2
  have hs := (BoxData.write_res b.data he.1).2
  have ho : b.data.writeData.out = Layout.box b.data := by rw [hw]
  have hb : bytesBits (Layout.payload b.data) = b.data.writeData.out := by
    rw [Layout.payload, bytesBits_toBytes _ (by rw [← ho, hs]; omega), ho]
  rw [bytesBits_append, hb]
  rcases h with h | ⟨hl, h⟩
  · refine ⟨bytesBits tail, ?_⟩
    rw [h.2, hs]
  · refine ⟨[], ?_⟩
    rw [ht hl]
    simp only [bytesBits_nil, List.append_nil]
    rw [h.2, hs]

theorem classOf_eq (sr : SimpleReader) (t : BoxType) (k : Kind) (h : sr.ReadsWith t k) : sr.classOf t = (k, sr.typeRead t) := by
  unfold classOf BoxMap.getBoxInstance typeRead
  rcases h with ⟨d, h1, h2⟩ | ⟨h1, h2⟩
  · rw [h1, ← h2]; rfl
  · rw [h1, h2]; rfl

/-- Reading the content does not depend on the type that an opaque object is given. -/
theorem readData_type (sr : SimpleReader) (env : Env) (t : BoxType) (wave : Bool) (k : Kind) (h : sr.ReadsWith t k) :
    BoxData.readData env (sr.typeRead t) wave k = BoxData.readData env t wave k := by
  unfold typeRead
  rcases h with ⟨d, h1, h2⟩ | ⟨h1, h2⟩
  · rw [h1]; rfl
  · rw [h2]; unfold BoxData.readData; rfl

theorem content_back (sr : SimpleReader) (hl : sr.data.length < 2 ^ 63) (b : Box) (p : List BoxType) (ls : List Tree) (wave : Bool)
    (o : Nat) (rest : List Byte) (data : BoxData) (hd : sr.data.drop o = (Tree.node b p ls).encode ++ rest)
    (ha : (Tree.node b p ls).All Tree.Encodable)
    (hm : sr.ReadsWith b.type b.data.kind)
    (hdec : Tree.DecodesTo (sr.env o) wave b (ls = []) data) :
    let h : BoxHeader := ⟨o, (Tree.node b p ls).total, Spec.headerSize (Tree.node b p ls).inner, b.type, false⟩
    read_box_header ⟨sr.data, o⟩ = .ok h ∧
    sr.readContent wave h = .ok (⟨sr.typeRead b.type, data, some h⟩, b.data.getDataSize) ∧
    h.getDataSize = (Tree.node b p ls).inner ∧ o + (Tree.node b p ls).total ≤ sr.data.length ∧
    ∃ rest', sr.data.drop (o + Spec.headerSize (Tree.node b p ls).inner + b.data.getDataSize) = Tree.encodeList ls ++ rest' := by
  intro h
  have hlen := Tree.encode_length _ ha
  have hle : o + (Tree.node b p ls).total ≤ sr.data.length := by
    have := congrArg List.length hd
    rw [List.length_drop, List.length_append, hlen] at this
    have := Tree.headerSize_cases (Tree.node b p ls).inner
    have ht : (Tree.node b p ls).total = (Tree.node b p ls).inner + Spec.headerSize (Tree.node b p ls).inner := rfl
    omega
  have htot : (Tree.node b p ls).total = (Tree.node b p ls).inner + Spec.headerSize (Tree.node b p ls).inner := rfl
  have hhs := Tree.headerSize_cases (Tree.node b p ls).inner
  have hd2 : sr.data.drop o = Spec.boxHeader ((Tree.node b p ls).inner + Spec.headerSize (Tree.node b p ls).inner)
      (BoxType.bytes b.type) ++ (Layout.payload b.data ++ Tree.encodeList ls ++ rest) := by
    rw [hd, Tree.encode, htot]; simp only [List.append_assoc]
  have hread : read_box_header ⟨sr.data, o⟩ = .ok h := by
    have := read_header_at sr.data o (Tree.node b p ls).inner b.type _ hl (by omega) hd2
    exact this
  have hds : h.getDataSize = (Tree.node b p ls).inner := by
    show sub64 (Tree.node b p ls).total (Spec.headerSize (Tree.node b p ls).inner) = _
    rw [sub64_eq (by omega) (by omega)]; omega
  have hd3 := drop_append_of hd2
  rw [Tree.boxHeader_length] at hd3
  have hpl := Tree.payload_length b ha.1
  have hel := Tree.encodeList_length ls ha.2
  have hin : (Tree.node b p ls).inner = b.data.getDataSize + Tree.totalList ls := by rw [Tree.inner]
  have hss : slice sr.data (h.offset + h.headerSize) h.getDataSize = Layout.payload b.data ++ Tree.encodeList ls := by
    refine slice_of_drop (rest := rest) ?_ ?_
    · exact hd3
    · rw [hds, List.length_append, hpl, hel, hin]
  have hcl : sr.classOf h.type = (b.data.kind, sr.typeRead b.type) := classOf_eq sr b.type _ hm
  have hfits : ¬ h.getDataSize > sub64 (sub64 sr.data.length h.offset) h.headerSize := by
    have e1 : sub64 sr.data.length h.offset = sr.data.length - o := sub64_eq (by show o ≤ _; omega) (by omega)
    have e2 : sub64 (sr.data.length - o) h.headerSize = sr.data.length - o - Spec.headerSize (Tree.node b p ls).inner :=
      sub64_eq (by show Spec.headerSize _ ≤ _; omega) (by omega)
    rw [e1, e2, hds]
    omega
  refine ⟨hread, ?_, hds, hle, rest, ?_⟩
  · rw [readContent]
    dsimp only
    rw [if_neg hfits, hss, hcl]
    obtain ⟨s, hs⟩ := decode_run ha.1 hdec (Tree.encodeList ls) (by intro hc; rw [hc]; rfl)
    obtain ⟨r, hr⟩ := runC_of_run _ _ _ _ hs
    dsimp only
    rw [readData_type sr _ _ _ _ hm, show sr.env h.offset = sr.env o from rfl, hr]
    dsimp only
    have hdiv : 8 * b.data.getDataSize / 8 = b.data.getDataSize := by omega
    rw [hdiv, if_neg]
    rintro ⟨-, hc⟩
    have : h.offset + h.headerSize = o + Spec.headerSize (Tree.node b p ls).inner := rfl
    omega
  · have hd4 : sr.data.drop (o + Spec.headerSize (Tree.node b p ls).inner)
        = Layout.payload b.data ++ (Tree.encodeList ls ++ rest) := by rw [hd3]; simp only [List.append_assoc]
    have := drop_append_of hd4
    rw [hpl] at this
    exact this

mutual
theorem readBox_back (sr : SimpleReader) (hl : sr.data.length < 2 ^ 63) : ∀ (t t' : Tree) (path : List BoxType) (wave : Bool)
    (o : Nat) (rest : List Byte), sr.data.drop o = t.encode ++ rest → t.All Tree.Encodable →
    Tree.ReadsAs sr path wave o t t' →
    ∃ N, ∀ f, N ≤ f → sr.readBox f path wave o = some ⟨t'.headers, .ok (t.total, t', o + t.total)⟩
  | .node b p ls, .node b' p' ls', path, wave, o, rest, hd, ha, hr => by
    obtain ⟨hm, hdec, ht, hp, hh, hls⟩ := hr
    obtain ⟨c1, c2, c3, c4, rest', c5⟩ := content_back sr hl b p ls wave o rest b'.data hd ha hm hdec
    have hin : (Tree.node b p ls).inner = b.data.getDataSize + Tree.totalList ls := by rw [Tree.inner]
    have htot : (Tree.node b p ls).total = (Tree.node b p ls).inner + Spec.headerSize (Tree.node b p ls).inner := rfl
    obtain ⟨N, hN⟩ := readLoop_back sr hl ls ls' p' (decide (b'.type = fourcc "wave"))
      (o + Spec.headerSize (Tree.node b p ls).inner + b.data.getDataSize) rest' c5 ha.2 hls b.data.getDataSize
      (by rw [hin] at htot; omega)
    refine ⟨N + 1, fun f hf => ?_⟩
    obtain ⟨f, rfl⟩ : ∃ k, f = k + 1 := ⟨f - 1, by omega⟩
    rw [readBox_succ, sr.body_ok c1 c2]
    have hb' : (⟨sr.typeRead b.type, b'.data, some ⟨o, (Tree.node b p ls).total, Spec.headerSize (Tree.node b p ls).inner, b.type, false⟩⟩ : Box)
        = b' := by
      cases b' with
      | mk t d h => simp only at ht hh; rw [ht, hh]
    rw [hb', c3, ← hp, hin]
    have := hN f (by omega) f (by omega)
    rw [hin] at this
    rw [this]
    dsimp only
    rw [Tree.headers, hh]
    have he : o + Spec.headerSize (b.data.getDataSize + Tree.totalList ls) + b.data.getDataSize + Tree.totalList ls
        = o + (Tree.node b p ls).total := by rw [htot, hin]; omega
    rw [he]
    rfl
theorem readLoop_back (sr : SimpleReader) (hl : sr.data.length < 2 ^ 63) : ∀ (ts ts' : List Tree) (path : List BoxType)
    (wave : Bool) (o : Nat) (rest : List Byte), sr.data.drop o = Tree.encodeList ts ++ rest →
    Tree.AllList Tree.Encodable ts → Tree.ReadsAsList sr path wave o ts ts' → ∀ done, done + Tree.totalList ts < 2 ^ 64 →
    ∃ N, ∀ f, N ≤ f → ∀ n, N ≤ n → readLoop (sr.readBox f path wave) (done + Tree.totalList ts) n done o
      = some ⟨Tree.headersList ts', .ok (ts', o + Tree.totalList ts)⟩
  | [], [], path, wave, o, rest, hd, ha, hr, done, hb => by
    refine ⟨1, fun f _ n hn => ?_⟩
    obtain ⟨n, rfl⟩ : ∃ k, n = k + 1 := ⟨n - 1, by omega⟩
    rw [readLoop, Tree.totalList, if_neg (by omega)]
    rfl
  | t :: ts, t' :: ts', path, wave, o, rest, hd, ha, hr, done, hb => by
    rw [Tree.encodeList, List.append_assoc] at hd
    rw [Tree.totalList_cons] at hb ⊢
    obtain ⟨N1, h1⟩ := readBox_back sr hl t t' path wave o _ hd ha.1 hr.1
    have hd2 := drop_append_of hd
    rw [Tree.encode_length t ha.1] at hd2
    obtain ⟨N2, h2⟩ := readLoop_back sr hl ts ts' path wave (o + t.total) rest hd2 ha.2 hr.2 (done + t.total) (by omega)
    refine ⟨max N1 N2 + 1, fun f hf n hn => ?_⟩
    obtain ⟨n, rfl⟩ : ∃ k, n = k + 1 := ⟨n - 1, by omega⟩
    have hpos : 0 < t.total := by
      rcases Tree.headerSize_cases t.inner with h | h <;> rw [Tree.total, h] <;> omega
    have hu : u64 (done + t.total) = done + t.total := Nat.mod_eq_of_lt (by omega)
    rw [readLoop, if_pos (by omega), h1 f (by omega)]
    dsimp only
    rw [hu, show done + (t.total + Tree.totalList ts) = done + t.total + Tree.totalList ts by omega,
      h2 f (by omega) n (by omega)]
    dsimp only
    rw [Tree.headersList, show o + t.total + Tree.totalList ts = o + (t.total + Tree.totalList ts) by omega]
  | [], _ :: _, _, _, _, _, _, _, hr, _, _ => hr.elim
  | _ :: _, [], _, _, _, _, _, _, hr, _, _ => hr.elim
end

/-- **C31.** For every forest `ts` of boxes that can be written: reading the file that consists of its encoding
(which `C13_serialization` shows to be what `BoxInfo::write` writes) returns exactly the forest `ts'` that `ReadsAs` describes - the
same types, nesting and order, the offsets and sizes at which the boxes were put, the data as decoded by the box
classes' `readData`. -/
theorem C31_read_back (sr : SimpleReader) (ts ts' : List Tree) (hd : sr.data = Tree.encodeList ts)
    (hl : Tree.totalList ts < 2 ^ 63)
    (hw : Tree.AllList (fun b => (∃ n, b.data.writeData.res = .ok n) ∧ ∀ m : Mdhd, b.data = .mdhd m → LangOk m.language) ts)
    (hr : Tree.ReadsAsList sr [] false 0 ts ts') :
    sr.read = some ⟨Tree.headersList ts', .ok ts'⟩ := by
  have he : Tree.AllList Tree.Encodable ts := by
    refine Tree.AllList.mono (fun b hb => ⟨?_, ?_⟩) ts hw
    · obtain ⟨n, hn⟩ := hb.1
      exact BoxData.writable_of_ok b.data hn
    · have hl := hb.2
      cases hd : b.data <;> first | exact hl _ hd | trivial
  have hlen : sr.data.length = Tree.totalList ts := by rw [hd, Tree.encodeList_length ts he]
  obtain ⟨N, hN⟩ := readLoop_back sr (by omega) ts ts' [] false 0 [] (by rw [hd]; simp) he hr 0 (by omega)
  obtain ⟨r, h1, h2, -⟩ := C28_terminates sr (by omega)
  have h3 := h2 N
  rw [readWith, hlen] at h3
  have h4 := hN (Tree.totalList ts + 2 + N) (by omega) (Tree.totalList ts + 2 + N) (by omega)
  rw [Nat.zero_add] at h4
  rw [h4] at h3
  rw [h1, ← h3]

mutual
theorem readsAs_place (sr : SimpleReader) : ∀ (t : Tree) (path : List BoxType) (wave : Bool) (o : Nat),
    Tree.Faithful sr path wave o t → Tree.ReadsAs sr path wave o t (t.place o)
  | .node b p ls, path, wave, o, h => by
    obtain ⟨h1, h2, h3, h4⟩ := h
    rw [Tree.place]
    obtain ⟨d, h0, h1⟩ := h1
    have ht : sr.typeRead b.type = b.type := by rw [typeRead, h0]; rfl
    refine ⟨.inl ⟨d, h0, h1⟩, h2, ht.symm, h3, rfl, ?_⟩
    exact readsAsList_place sr ls p _ _ h4
theorem readsAsList_place (sr : SimpleReader) : ∀ (ts : List Tree) (path : List BoxType) (wave : Bool) (o : Nat),
    Tree.FaithfulList sr path wave o ts → Tree.ReadsAsList sr path wave o ts (Tree.placeList ts o)
  | [], _, _, _, _ => trivial
  | t :: ts, path, wave, o, h =>
    ⟨readsAs_place sr t path wave o h.1, readsAsList_place sr ts path wave _ h.2⟩
end

/-- **C31.** A tree of registered boxes whose content the box classes themselves round-trip (C16-C27), laid out with
`adjustOffsetAndSize(0)` and written to an empty file: `SimpleReader` on that file returns exactly that tree, with the
same fields, paths, offsets and sizes. -/
theorem C31_write_then_read (t : Tree) (file : Bool) (env : Nat → Env) (ha : t.All Box.OwnHeader) (hl : t.total < 2 ^ 63)
    (hw : t.All fun b => (∃ n, b.data.writeData.res = .ok n) ∧ ∀ m : Mdhd, b.data = .mdhd m → LangOk m.language)
    (hf : ∀ d, Tree.Faithful { file, env, data := d } [] false 0 t) :
    ∃ t' os', t.adjustOffsetAndSize 0 = some (t.total, t') ∧ t'.write ⟨[], 0⟩ = (.ok (), t', os') ∧
      ({ file, env, data := os'.data } : SimpleReader).read = some ⟨t'.headers, .ok [t']⟩ := by
  obtain ⟨t', os', h1, h2, h3, h4, h5, h6⟩ := C13_serialization t 0 ⟨[], 0⟩ ha (by omega) hw
  have hp := C12_layout t 0 ha (by omega)
  rw [h1] at hp
  simp only [Option.some.injEq, Prod.mk.injEq, true_and] at hp
  have hdata : os'.data = t.encode := by
    have := OStream.write_end [] t.encode
    rw [h3]
    show ((OStream.mk [] 0).write t.encode).data = _
    rw [show (0 : Nat) = ([] : List Byte).length from rfl, this]
    simp
  refine ⟨t', os', h1, h2, ?_⟩
  have hlist : t.encode = Tree.encodeList [t] := by rw [Tree.encodeList, Tree.encodeList, List.append_nil]
  have := C31_read_back { file, env, data := os'.data } [t] [t'] (by rw [← hlist]; exact hdata)
    (by rw [Tree.totalList_cons, Tree.totalList]; omega) ⟨hw, trivial⟩ ⟨by rw [hp]; exact readsAs_place _ t _ _ _ (hf _), trivial⟩
  rw [this, Tree.headersList, Tree.headersList, List.append_nil]

theorem RoundTrip.wrap {α β : Type} {m : W Nat} {p : R (Nat × α)} {a : α} (g : α → β) (h : RoundTrip m p a) :
    RoundTrip m (p.bind fun x => .ret (x.1, g x.2)) (g a) := by
  refine ⟨h.1, fun d rest => ?_⟩
  rw [R.run_bind, h.2]
  rfl

theorem RoundTripEnd.wrap {α β : Type} {m : W Nat} {p : R (Nat × α)} {a : α} (g : α → β) (h : RoundTripEnd m p a) :
    RoundTripEnd m (p.bind fun x => .ret (x.1, g x.2)) (g a) := by
  refine ⟨h.1, fun d => ?_⟩
  rw [R.run_bind, h.2]
  rfl

/-- a tree that meets the hypotheses: `moov` with a `stss` and a `free` box -/
def exampleTree : Tree :=
  .node ⟨fourcc "moov", .empty, none⟩ [fourcc "moov"]
    [.node ⟨fourcc "stss", .stss ⟨⟨0, 0, 0, 0⟩, [1#32, 7#32]⟩, none⟩ [fourcc "moov", fourcc "stss"] [],
     .node ⟨fourcc "free", .opaq ⟨[1, 2, 3]⟩, none⟩ [fourcc "moov", fourcc "free"] []]

unseal BoxData.readData in
theorem exampleTree_faithful (sr : SimpleReader) (hm : sr.map = stdBoxMap) : Tree.Faithful sr [] false 0 exampleTree := by
  refine ⟨⟨⟨.empty, []⟩, by rw [hm]; decide +kernel, rfl⟩, .inl (C16_containers _ _ _), rfl, ?_, ?_, trivial⟩
  · refine ⟨⟨⟨.stss, [0#8]⟩, by rw [hm]; decide +kernel, rfl⟩, .inl ?_, rfl, trivial⟩
    exact RoundTrip.wrap BoxData.stss (C19_stss ⟨⟨0, 0, 0, 0⟩, [1#32, 7#32]⟩ (by decide))
  · refine ⟨⟨⟨.opaq, []⟩, by rw [hm]; decide +kernel, rfl⟩, .inr ⟨rfl, ?_⟩, rfl, trivial⟩
    exact RoundTripEnd.wrap BoxData.opaq (C27_opaque ⟨[1, 2, 3]⟩).1

example (file : Bool) (env : Nat → Env) :
    ∃ t' os', exampleTree.adjustOffsetAndSize 0 = some (43, t') ∧ t'.write ⟨[], 0⟩ = (.ok (), t', os') ∧
      ({ file, env, data := os'.data } : SimpleReader).read = some ⟨t'.headers, .ok [t']⟩ := by
  have ht : exampleTree.total = 43 := by decide +kernel
  rw [← ht]
  refine C31_write_then_read exampleTree file env ?_ (by rw [ht]; decide) ?_ (fun d => exampleTree_faithful _ rfl)
  · exact ⟨fun _ h => (by cases h), ⟨fun _ h => (by cases h), trivial⟩, ⟨fun _ h => (by cases h), trivial⟩, trivial⟩
  · exact ⟨⟨⟨_, rfl⟩, fun _ h => (by cases h)⟩, ⟨⟨⟨_, rfl⟩, fun _ h => (by cases h)⟩, trivial⟩,
      ⟨⟨⟨_, rfl⟩, fun _ h => (by cases h)⟩, trivial⟩, trivial⟩

/-- `C30` is about executions that happen: the reader returns normally for the file above. -/
example (file : Bool) (env : Nat → Env) :
    ∃ (sr : SimpleReader) (vs : List BoxHeader) (t : Tree), sr.file = file ∧ sr.env = env ∧ sr.data.length = 43 ∧
      sr.read = some ⟨vs, .ok [t]⟩ ∧ Tree.TiledList [t] 0 43 ∧ vs.length = 3 := by
  have ht : exampleTree.total = 43 := by decide +kernel
  have hw : exampleTree.All fun b => (∃ n, b.data.writeData.res = .ok n) ∧ ∀ m : Mdhd, b.data = .mdhd m → LangOk m.language :=
    ⟨⟨⟨_, rfl⟩, fun _ h => (by cases h)⟩, ⟨⟨⟨_, rfl⟩, fun _ h => (by cases h)⟩, trivial⟩,
      ⟨⟨⟨_, rfl⟩, fun _ h => (by cases h)⟩, trivial⟩, trivial⟩
  have hlen : exampleTree.encode.length = 43 := by decide +kernel
  have h := C31_read_back { file, env, data := exampleTree.encode } [exampleTree] [exampleTree.place 0]
    (by rw [Tree.encodeList, Tree.encodeList, List.append_nil])
    (by rw [Tree.totalList_cons, Tree.totalList, ht]; decide) ⟨hw, trivial⟩
    ⟨readsAs_place _ _ _ _ _ (exampleTree_faithful _ rfl), trivial⟩
  refine ⟨_, _, _, rfl, rfl, hlen, h, ?_, ?_⟩
  · have := (C30_tiling _ (by show exampleTree.encode.length < _; rw [hlen]; decide) _ _ h).1
    rw [← hlen]
    exact this
  · decide +kernel

end Mp4
