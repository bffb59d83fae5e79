import Verif.Spec.LayoutEsds

/-! # Write/size/read facts of `esds` and `sgpd` -/

namespace Mp4
open R

/-! ### sizes -/

theorem ESFields.size_eq (f : ESFields) : f.getDataSize = BitVec.ofNat 32 (Layout.esOwnSize f) := by
  apply BitVec.eq_of_toNat_eq
  simp only [ESFields.getDataSize, Layout.esOwnSize]
  cases f.stream_dependence_flag <;> cases f.url_flag <;> cases f.ocr_stream_flag <;>
    simp [BitVec.toNat_add] <;> omega

theorem Descriptor.getSize_mod (d : Descriptor) :
    BitVec.ofNat 32 d.getSize = BitVec.ofNat 32 (Layout.flatSize d) := by
  cases d with
  | es f subs =>
    apply BitVec.eq_of_toNat_eq
    simp [Descriptor.getSize, Layout.flatSize, ESFields.size_eq, uvarint_size]
  | _ => simp [Descriptor.getSize, Layout.flatSize, uvarint_size]

theorem Descriptor.getSize_flat (d : Descriptor) (h : d.UrlOk) : d.getSize = Layout.flatSize d := by
  cases d with
  | es f subs =>
    simp only [Descriptor.getSize, Layout.flatSize, ESFields.size_eq, uvarint_size, BitVec.toNat_ofNat]
    rw [Nat.mod_eq_of_lt]
    simp only [Layout.esOwnSize]
    have h : f.url_flag = true → f.url_string.length ≤ 255 := h
    cases hu : f.url_flag
    · simp only [Bool.false_eq_true, ↓reduceIte]; split <;> split <;> omega
    · have := h hu
      simp only [↓reduceIte]; split <;> split <;> omega
  | _ => simp [Descriptor.getSize, Layout.flatSize, uvarint_size]

theorem foldl_getSize (l : List Descriptor) (a : BitVec 32) :
    l.foldl (fun (a : BitVec 32) d => a + BitVec.ofNat 32 d.getSize) a
      = a + BitVec.ofNat 32 (l.map Layout.flatSize).sum := by
  induction l generalizing a with
  | nil => simp
  | cons d l ih =>
    rw [List.foldl_cons, ih, Descriptor.getSize_mod, List.map_cons, List.sum_cons, BitVec.ofNat_add, BitVec.add_assoc]

mutual
theorem Descriptor.sizeWithSubs_eq : (d : Descriptor) →
    d.sizeWithSubs = BitVec.ofNat 32 (Layout.declaredSize d)
  | .es f subs => by
    simp only [Descriptor.sizeWithSubs, Layout.declaredSize, ESFields.size_eq]
    have hs := Descriptor.esSubs_eq subs
    by_cases h : f.sub_descriptors_size = 0
    · simp [h, hs, BitVec.ofNat_add]
    · have h' : f.sub_descriptors_size > 0 := by
        rw [gt_iff_lt, BitVec.lt_def]
        have : f.sub_descriptors_size.toNat ≠ 0 := fun e => h (BitVec.eq_of_toNat_eq (by simpa using e))
        simp; omega
      rw [if_pos h', if_pos h, BitVec.ofNat_add, BitVec.ofNat_toNat, BitVec.setWidth_eq]
  | .decConfig f subs => by
    simp only [Descriptor.sizeWithSubs, Layout.declaredSize, foldl_getSize]
    by_cases h : f.sub_descriptors_size = 0
    · simp [h, BitVec.ofNat_add]
    · have h' : f.sub_descriptors_size > 0 := by
        rw [gt_iff_lt, BitVec.lt_def]
        have : f.sub_descriptors_size.toNat ≠ 0 := fun e => h (BitVec.eq_of_toNat_eq (by simpa using e))
        simp; omega
      rw [if_pos h', if_pos h, BitVec.ofNat_add, BitVec.ofNat_toNat, BitVec.setWidth_eq]
      rfl
  | .decSpecific data => by simp [Descriptor.sizeWithSubs, Layout.declaredSize]
  | .slConfig data => by simp [Descriptor.sizeWithSubs, Layout.declaredSize]
theorem Descriptor.esSubs_eq : (l : List Descriptor) →
    Descriptor.esSubs l = BitVec.ofNat 32 (Layout.nestedSize l)
  | [] => by simp [Descriptor.esSubs, Layout.nestedSize]
  | d :: l => by
    simp only [Descriptor.esSubs, Layout.nestedSize, BitVec.ofNat_add]
    rw [Descriptor.sizeWithSubs_eq d, Descriptor.esSubs_eq l]
    rfl
end

/-! ### writing -/

theorem Descriptor.write_eq (d : Descriptor) (h : d.UrlOk) :
    d.writeData = ⟨Layout.descriptor d, .ok (8 * d.getSize)⟩ := by
  rw [Descriptor.getSize_flat d h]
  cases d with
  | es f subs =>
    have h : f.url_flag = true → f.url_string.length ≤ 255 := h
    simp only [Descriptor.writeData, Layout.descriptor, Layout.flatSize, Layout.esOwnSize, wr,
      Descriptor.sizeWithSubs_eq, Nat.reduceLT, Nat.reduceLeDiff]
    cases hu : f.url_flag
    · cases hd : f.stream_dependence_flag <;> cases ho : f.ocr_stream_flag <;>
      simp [W.opt, W.pure, onlyIf]
    · have := h hu
      simp only [W.opt]
      cases hd : f.stream_dependence_flag <;> cases ho : f.ocr_stream_flag
      all_goals
        simp only [↓reduceIte]
        rw [if_neg (by omega)]
        simp only [wr, onlyIf, ↓reduceIte]
        simp [W.pure]
      all_goals omega
  | decConfig f subs =>
    simp only [Descriptor.writeData, Layout.descriptor, Layout.flatSize, wr,
      Descriptor.sizeWithSubs_eq, Nat.reduceLT, Nat.reduceLeDiff]
    simp
  | decSpecific data =>
    simp only [Descriptor.writeData, Layout.descriptor, Layout.flatSize, wr, Nat.reduceLT]
    simp; omega
  | slConfig data =>
    simp only [Descriptor.writeData, Layout.descriptor, Layout.flatSize, wr, Nat.reduceLT]
    simp; omega

theorem Descriptor.size_eq (d : Descriptor) (h : d.UrlOk) : (Layout.descriptor d).length = 8 * d.getSize := by
  rw [Descriptor.getSize_flat d h]
  cases d with
  | es f subs =>
    simp only [Layout.descriptor, Layout.flatSize, Layout.esOwnSize, ll, Nat.reduceLT]
    cases f.stream_dependence_flag <;> cases f.url_flag <;> cases f.ocr_stream_flag <;>
      simp only [Bool.false_eq_true, ↓reduceIte] <;> omega
  | decConfig f subs => simp only [Layout.descriptor, Layout.flatSize, ll, Nat.reduceLT]
  | decSpecific data => simp only [Layout.descriptor, Layout.flatSize, ll]; omega
  | slConfig data => simp only [Layout.descriptor, Layout.flatSize, ll]; omega

/-- A too long URL is refused, after the fields before it have been output. -/
theorem Descriptor.write_url_too_long (f : ESFields) (subs : List Descriptor) (hf : f.url_flag = true)
    (h : 255 < f.url_string.length) :
    (∃ e, (Descriptor.es f subs).writeData.res = .error (.exc e)) ∧
      (Descriptor.es f subs).writeData.out =
        bits 3#8 ++ lenBits (BitVec.ofNat 32 (Layout.declaredSize (.es f subs))) ++ bits f.ESID ++
        bbit f.stream_dependence_flag ++ bbit f.url_flag ++ bbit f.ocr_stream_flag ++ sbits 5 f.stream_priority ++
        onlyIf f.stream_dependence_flag (bits f.depends_on_esid) := by
  simp only [Descriptor.writeData, wr, Descriptor.sizeWithSubs_eq, Nat.reduceLT, Nat.reduceLeDiff]
  simp only [W.opt, hf, ↓reduceIte]
  rw [if_pos h]
  simp [W.throw, W.bind, W.opt]

theorem Esds.write_eq (b : Esds) (h : ∀ d ∈ b.descriptors, d.UrlOk) :
    b.writeData = ⟨Layout.esds b, .ok (8 * b.getDataSize)⟩ := by
  simp only [Esds.writeData, Layout.esds, Esds.getDataSize, wr]
  rw [wr_listv _ Layout.descriptor Descriptor.getSize _ (fun d hd => Descriptor.write_eq d (h d hd))]
  simp; omega
theorem Esds.size_eq (b : Esds) (h : ∀ d ∈ b.descriptors, d.UrlOk) :
    (Layout.esds b).length = 8 * b.getDataSize := by
  simp only [Layout.esds, Esds.getDataSize, List.length_append, fbits_length]
  rw [ll_listv Layout.descriptor Descriptor.getSize _ (fun d hd => Descriptor.size_eq d (h d hd))]
  omega

/-! ### reading -/

/-- A descriptor without attached sub-descriptor objects and without values in absent fields is stored as it is. -/
theorem Descriptor.stored_es (g : ESJunk) (f : ESFields)
    (hd : f.stream_dependence_flag = true ∨ f.depends_on_esid = g.depends_on_esid)
    (hu : f.url_flag = true ∨ f.url_string = []) (ho : f.ocr_stream_flag = true ∨ f.OCRESID = g.OCRESID) :
    Descriptor.stored g (.es f []) = .es f [] := by
  have : BitVec.ofNat 32 (Layout.declaredSize (.es f []) - Layout.esOwnSize f) = f.sub_descriptors_size := by
    rw [Layout.declaredSize, Nat.add_sub_cancel_left]
    by_cases h : f.sub_descriptors_size = 0
    · simp [h, Layout.nestedSize]
    · rw [if_pos h, BitVec.ofNat_toNat, BitVec.setWidth_eq]
  simp only [Descriptor.stored, this]
  obtain ⟨a, b, c, d, e, p, dep, u, o⟩ := f
  rcases hd with rfl | rfl <;> rcases hu with rfl | rfl <;> rcases ho with rfl | rfl <;> simp

theorem Descriptor.stored_decConfig (g : ESJunk) (f : DecConfigFields) :
    Descriptor.stored g (.decConfig f []) = .decConfig f [] := by
  have : BitVec.ofNat 32 (Layout.declaredSize (.decConfig f []) - 13) = f.sub_descriptors_size := by
    rw [Layout.declaredSize, Nat.add_sub_cancel_left]
    by_cases h : f.sub_descriptors_size = 0
    · simp [h]
    · rw [if_pos h, BitVec.ofNat_toNat, BitVec.setWidth_eq]
  simp only [Descriptor.stored, this]

theorem rd_len {β : Type} (n : Nat) (hn : n < 2 ^ 28) (f : Nat × BitVec 32 → R β) (d : List Byte) (rest : List Bool) :
    ((read_uvarint 32).bind f).run d (lenBits (BitVec.ofNat 32 n) ++ rest)
      = (f (32, BitVec.ofNat 32 n)).run d rest :=
  rd_uvarint _ f d rest (by rw [BitVec.toNat_ofNat]; exact Nat.lt_of_le_of_lt (Nat.mod_le _ _) hn)

/-- Read one element followed by anything, then continue. -/
theorem readInfo_eq {β : Type} (mk : List Byte → Descriptor) (data : List Byte) (hn : data.length < 2 ^ 28)
    (k : Nat × Descriptor → R β) (d : List Byte) (rest : List Bool) :
    ((readInfo mk).bind k).run d (lenBits (BitVec.ofNat 32 data.length) ++ (data.flatMap bits ++ rest))
      = (k (32 + 8 * data.length, mk data)).run d rest := by
  simp only [readInfo, rd]
  rw [rd_len _ hn, rd_vector _ _ _ d rest (by simp; omega) (by decide) (by decide)]

theorem DecConfig_read_eq {β : Type} (f : DecConfigFields) (n : Nat) (hn : n < 2 ^ 28) (h13 : 13 ≤ n)
    (ht : SFits 6 f.stream_type)
    (hb : f.buffer_size_db.toNat < 2 ^ 24) (k : Nat × Descriptor → R β) (d : List Byte) (rest : List Bool) :
    (DecConfigFields.readData.bind k).run d (lenBits (BitVec.ofNat 32 n) ++ (bits f.object_type_indication ++
      (sbits 6 f.stream_type ++ (bbit f.upstream ++ (bbit f.reserved ++ (ubits 24 f.buffer_size_db ++
      (bits f.max_bitrate ++ (bits f.avg_bitrate ++ rest))))))))
      = (k (136, .decConfig { f with sub_descriptors_size := BitVec.ofNat 32 (n - 13) } [])).run d rest := by
  simp only [DecConfigFields.readData, rd]
  rw [rd_len _ hn]
  simp only [rd, Nat.reduceLT, Nat.reduceLeDiff, ht, hb]
  have : (BitVec.ofNat 32 n - 13 : BitVec 32) = BitVec.ofNat 32 (n - 13) := by
    apply BitVec.eq_of_toNat_eq
    simp [BitVec.toNat_sub]; omega
  rw [this]

theorem ES_read_eq {β : Type} (g : ESJunk) (f : ESFields) (n : Nat) (hn : n < 2 ^ 28) (hown : Layout.esOwnSize f ≤ n)
    (ht : SFits 5 f.stream_priority) (hu : f.url_flag = true → f.url_string.length ≤ 255)
    (k : Nat × Descriptor → R β) (d : List Byte) (rest : List Bool) :
    ((ESFields.readData g).bind k).run d (lenBits (BitVec.ofNat 32 n) ++ (bits f.ESID ++
      (bbit f.stream_dependence_flag ++ (bbit f.url_flag ++ (bbit f.ocr_stream_flag ++ (sbits 5 f.stream_priority ++
      (onlyIf f.stream_dependence_flag (bits f.depends_on_esid) ++
      (onlyIf f.url_flag (cbits 8 f.url_string.length ++ f.url_string.flatMap bits) ++
      (onlyIf f.ocr_stream_flag (bits f.OCRESID) ++ rest)))))))))
      = (k (32 + 8 * Layout.esOwnSize f, .es { f with
      sub_descriptors_size := BitVec.ofNat 32 (n - Layout.esOwnSize f)
      depends_on_esid := if f.stream_dependence_flag then f.depends_on_esid else g.depends_on_esid
      url_string := if f.url_flag then f.url_string else []
      OCRESID := if f.ocr_stream_flag then f.OCRESID else g.OCRESID } [])).run d rest := by
  simp only [ESFields.readData, rd]
  rw [rd_len _ hn]
  simp only [rd, Nat.reduceLT, Nat.reduceLeDiff, ht]
  have hurl : ∀ (kk : Nat × List Byte → R β) (rest : List Bool),
      ((R.opt f.url_flag ((read_uint 8).bind fun x => (read_vector_uint 8 x.2.toNat).bind fun y =>
        ret (x.1 + y.1, y.2)) []).bind kk).run d
        (onlyIf f.url_flag (cbits 8 f.url_string.length ++ f.url_string.flatMap bits) ++ rest)
      = (kk (if f.url_flag then 8 + 8 * f.url_string.length else 0,
          if f.url_flag then f.url_string else [])).run d rest := by
    intro kk rest
    cases hf : f.url_flag
    · rfl
    · have := hu hf
      simp only [R.opt, onlyIf, ↓reduceIte, rd, Nat.reduceLT, Nat.reduceLeDiff]
      rw [rd_vector _ _ _ d rest (by simp; omega) (by decide) (by decide)]
  rw [hurl]
  simp only [rd, Nat.reduceLT, Nat.reduceLeDiff]
  have hsz : ∀ (a : BitVec 32) (e o : BitVec 16), BitVec.ofNat 32 n - ESFields.getDataSize
      { sub_descriptors_size := a, ESID := f.ESID, stream_dependence_flag := f.stream_dependence_flag,
        url_flag := f.url_flag, ocr_stream_flag := f.ocr_stream_flag, stream_priority := f.stream_priority,
        depends_on_esid := e, url_string := if f.url_flag then f.url_string else [], OCRESID := o }
      = BitVec.ofNat 32 (n - Layout.esOwnSize f) := by
    intro a e o
    rw [ESFields.size_eq]
    have : Layout.esOwnSize
      { sub_descriptors_size := a, ESID := f.ESID,
        stream_dependence_flag := f.stream_dependence_flag,
        url_flag := f.url_flag, ocr_stream_flag := f.ocr_stream_flag, stream_priority := f.stream_priority,
        depends_on_esid := e, url_string := if f.url_flag then f.url_string else [], OCRESID := o }
        = Layout.esOwnSize f := by
      simp only [Layout.esOwnSize]; cases f.url_flag <;> simp
    rw [this]
    apply BitVec.eq_of_toNat_eq
    simp [BitVec.toNat_sub]; omega
  simp only [hsz]
  congr 2
  simp only [Prod.mk.injEq, and_true, Layout.esOwnSize]
  cases f.stream_dependence_flag <;> cases f.url_flag <;> cases f.ocr_stream_flag <;> simp <;> omega

theorem Esds.readGo_nil (g : ESJunk) (fb : FullBox) (fuel rb : Nat) (acc : List Descriptor) (d : List Byte) :
    (Esds.readGo g fb fuel rb acc).run d [] = .ok ((rb, ⟨fb, acc⟩), []) := by
  cases fuel <;> simp [Esds.readGo, rd]

theorem Esds.readGo_cons (g : ESJunk) (fb : FullBox) (fuel rb : Nat) (acc : List Descriptor) (x : Descriptor)
    (hu : x.UrlOk) (hf : x.Fits) (d : List Byte) (rest : List Bool) :
    (Esds.readGo g fb (fuel + 1) rb acc).run d (Layout.descriptor x ++ rest)
      = (Esds.readGo g fb fuel (rb + 8 * x.getSize) (acc ++ [x.stored g])).run d rest := by
  rw [Descriptor.getSize_flat x hu]
  rw [Esds.readGo]
  have hne : ¬ ((Layout.descriptor x ++ rest).length / 8 = 0) := by
    have := Descriptor.size_eq x hu
    rw [Descriptor.getSize_flat x hu] at this
    have h5 : 5 ≤ Layout.flatSize x := by cases x <;> simp [Layout.flatSize] <;> omega
    rw [List.length_append, this]; omega
  simp only [rd, hne, ↓reduceIte]
  cases x with
  | es f subs =>
    obtain ⟨hn, ht⟩ := hf
    simp only [Layout.descriptor, rd, Nat.reduceLT, Nat.reduceLeDiff, ↓reduceIte]
    rw [ES_read_eq g f _ hn (by rw [Layout.declaredSize]; omega) ht hu]
    simp only [Descriptor.stored, Layout.flatSize]
    congr 2; omega
  | decConfig f subs =>
    obtain ⟨hn, ht, hb⟩ := hf
    simp only [Layout.descriptor, rd, Nat.reduceLT, Nat.reduceLeDiff, ↓reduceIte, show (4#8 = 3#8) = False by simp]
    rw [DecConfig_read_eq f _ hn (by rw [Layout.declaredSize]; omega) ht hb]
    simp only [Descriptor.stored, Layout.flatSize]
  | decSpecific data =>
    obtain ⟨hn, -⟩ := hf
    simp only [Layout.declaredSize] at hn
    simp only [Layout.descriptor, rd, Nat.reduceLT, Nat.reduceLeDiff, ↓reduceIte, show (5#8 = 3#8) = False by simp,
      show (5#8 = 4#8) = False by simp]
    rw [readInfo_eq _ _ hn]
    simp only [Descriptor.stored, Layout.flatSize]
    congr 2; omega
  | slConfig data =>
    obtain ⟨hn, -⟩ := hf
    simp only [Layout.declaredSize] at hn
    simp only [Layout.descriptor, rd, Nat.reduceLT, Nat.reduceLeDiff, ↓reduceIte, show (6#8 = 3#8) = False by simp,
      show (6#8 = 4#8) = False by simp, show (6#8 = 5#8) = False by simp]
    rw [readInfo_eq _ _ hn]
    simp only [Descriptor.stored, Layout.flatSize]
    congr 2; omega

theorem Esds.readGo_list (g : ESJunk) (fb : FullBox) (l : List Descriptor)
    (h : ∀ x ∈ l, x.UrlOk ∧ x.Fits) (fuel rb : Nat) (hfuel : l.length ≤ fuel) (acc : List Descriptor) (d : List Byte) :
    (Esds.readGo g fb fuel rb acc).run d (l.flatMap Layout.descriptor)
      = .ok ((rb + 8 * (l.map Descriptor.getSize).sum, ⟨fb, acc ++ l.map (·.stored g)⟩), []) := by
  induction l generalizing fuel rb acc with
  | nil => rw [List.flatMap_nil, Esds.readGo_nil]; simp
  | cons x l ih =>
    obtain ⟨fuel, rfl⟩ : ∃ n, fuel = n + 1 := ⟨fuel - 1, by simp at hfuel; omega⟩
    rw [List.flatMap_cons, Esds.readGo_cons g fb fuel rb acc x (h x (by simp)).1 (h x (by simp)).2]
    rw [ih (fun y hy => h y (by simp [hy])) fuel _ (by simpa using hfuel)]
    simp; omega

theorem Esds.read_eq (b : Esds) (g : ESJunk) (h : ∀ x ∈ b.descriptors, x.UrlOk ∧ x.Fits) (d : List Byte) :
    (Esds.readData g).run d (Layout.esds b)
      = .ok ((8 * b.getDataSize, { b with descriptors := b.descriptors.map (·.stored g) }), []) := by
  simp only [Esds.readData, Layout.esds, rd]
  rw [Esds.readGo_list g b.toFullBox b.descriptors h]
  · simp [Esds.getDataSize]; omega
  · rw [ll_listv Layout.descriptor Descriptor.getSize _ (fun d hd => Descriptor.size_eq d (h d hd).1),
      Nat.mul_div_cancel_left _ (by decide)]
    have : ∀ l : List Descriptor, l.length ≤ (l.map Descriptor.getSize).sum := by
      intro l
      induction l with
      | nil => simp
      | cons x l ih =>
        have : 1 ≤ x.getSize := by cases x <;> simp [Descriptor.getSize] <;> omega
        simp; omega
    have := this b.descriptors
    omega

/-- An unknown tag right after the version field: the reader reports one byte more than the box has. -/
theorem Esds.read_unknown_tag (g : ESJunk) (fb : FullBox) (tag : BitVec 8)
    (ht : tag ≠ 3#8 ∧ tag ≠ 4#8 ∧ tag ≠ 5#8 ∧ tag ≠ 6#8) (l : List Descriptor)
    (h : ∀ x ∈ l, x.UrlOk ∧ x.Fits) (tail d : List Byte) :
    ∃ rest, (Esds.readData g).run d
        (fbits fb ++ (l.flatMap Layout.descriptor ++ bytesBits (tag :: tail)))
      = .ok ((8 * ((4 + (l.map Descriptor.getSize).sum + (1 + tail.length)) + 1),
          ⟨fb, l.map (·.stored g)⟩), rest) := by
  have go : ∀ (l : List Descriptor), (∀ x ∈ l, x.UrlOk ∧ x.Fits) → ∀ (fuel rb : Nat) (acc : List Descriptor),
      l.length < fuel → (Esds.readGo g fb fuel rb acc).run d
        (l.flatMap Layout.descriptor ++ bytesBits (tag :: tail))
      = .ok ((rb + 8 * (l.map Descriptor.getSize).sum + 8 + (1 + tail.length) * 8,
          ⟨fb, acc ++ l.map (·.stored g)⟩), bytesBits tail) := by
    intro l
    induction l with
    | nil =>
      intro _ fuel rb acc hfuel
      obtain ⟨fuel, rfl⟩ : ∃ n, fuel = n + 1 := ⟨fuel - 1, by simp at hfuel; omega⟩
      rw [List.flatMap_nil, List.nil_append, Esds.readGo]
      have hlen : (bytesBits (tag :: tail)).length / 8 = 1 + tail.length := by
        rw [bytesBits_length, List.length_cons]; omega
      simp only [rd, hlen]
      rw [if_neg (by omega), bytesBits_cons, rd_int 8 tag _ d _ (by decide) (by decide)]
      simp [ht, rd]
    | cons x l ih =>
      intro h fuel rb acc hfuel
      obtain ⟨fuel, rfl⟩ : ∃ n, fuel = n + 1 := ⟨fuel - 1, by simp at hfuel; omega⟩
      rw [List.flatMap_cons, List.append_assoc,
        Esds.readGo_cons g fb fuel rb acc x (h x (by simp)).1 (h x (by simp)).2]
      rw [ih (fun y hy => h y (by simp [hy])) fuel _ _ (by simpa using hfuel)]
      simp; omega
  have hlenl : l.length ≤ ((l.flatMap Layout.descriptor).length) / 8 := by
    rw [ll_listv Layout.descriptor Descriptor.getSize _ (fun d hd => Descriptor.size_eq d (h d hd).1),
      Nat.mul_div_cancel_left _ (by decide)]
    clear h go
    induction l with
    | nil => simp
    | cons x l ih =>
      have : 1 ≤ x.getSize := by cases x <;> simp [Descriptor.getSize] <;> omega
      simp; omega
  refine ⟨bytesBits tail, ?_⟩
  simp only [Esds.readData, rd]
  rw [go l h _ _ _ (by rw [List.length_append, bytesBits_length, List.length_cons]; omega)]
  simp; omega

/-! ### sgpd -/

theorem RollDistance.write_eq (e : RollDistance) : e.writeData = ⟨Layout.rollDistance e, .ok (8 * e.getSize)⟩ := by
  cases h : e.with_length <;> simp [RollDistance.writeData, Layout.rollDistance, RollDistance.getSize, wr, h, onlyIf]
theorem RollDistance.size_eq (e : RollDistance) : (Layout.rollDistance e).length = 8 * e.getSize := by
  simp only [Layout.rollDistance, RollDistance.getSize, ll]; cases e.with_length <;> simp
theorem RollDistance.read_eq (e : RollDistance) (wl : Bool) (h : e.Ok wl) (d : List Byte) (rest : List Bool) :
    (RollDistance.readData wl).run d (Layout.rollDistance e ++ rest) = .ok ((8 * e.getSize, e), rest) := by
  obtain ⟨a, b, c⟩ := e
  obtain ⟨rfl, h2⟩ := h
  cases c
  · have := h2 rfl
    simp only at this
    subst this
    simp [RollDistance.readData, Layout.rollDistance, RollDistance.getSize, rd, onlyIf, R.opt]
  · simp [RollDistance.readData, Layout.rollDistance, RollDistance.getSize, rd]

theorem StartupOpt.write_eq (e : StartupOpt) : e.writeData = ⟨Layout.startupOpt e, .ok 32⟩ := by
  simp [StartupOpt.writeData, Layout.startupOpt, wr]
theorem StartupOpt.read_eq (e : StartupOpt) (d : List Byte) (rest : List Bool) :
    StartupOpt.readData.run d (Layout.startupOpt e ++ rest) = .ok ((32, e), rest) := by
  simp [StartupOpt.readData, Layout.startupOpt, rd]

theorem StartupEntry.write_eq (e : StartupEntry) : e.writeData = ⟨Layout.startupEntry e, .ok (8 * e.getSize)⟩ := by
  have hk : writeList StartupOpt.writeData e.opts = ⟨e.opts.flatMap Layout.startupOpt, .ok (32 * e.opts.length)⟩ :=
    wr_list _ _ _ _ (fun x _ => StartupOpt.write_eq x)
  simp only [StartupEntry.writeData, Layout.startupEntry, StartupEntry.getSize, wr, hk]
  cases h : e.with_length <;> simp [onlyIf] <;> omega
theorem StartupEntry.size_eq (e : StartupEntry) : (Layout.startupEntry e).length = 8 * e.getSize := by
  have hk : (e.opts.flatMap Layout.startupOpt).length = 32 * e.opts.length :=
    ll_list _ _ _ (fun x _ => by simp [Layout.startupOpt])
  simp only [Layout.startupEntry, StartupEntry.getSize, ll, hk]
  cases e.with_length <;> simp <;> omega

theorem StartupEntry.read_eq (e : StartupEntry) (len : BitVec 32) (wl : Bool) (h : e.Ok len wl)
    (d : List Byte) (rest : List Bool) :
    (StartupEntry.readData len wl).run d (Layout.startupEntry e ++ rest) = .ok ((8 * e.getSize, e), rest) := by
  obtain ⟨dl, w, rc, fo, so, op⟩ := e
  obtain ⟨rfl, hnl, hr, hl, hs⟩ := h
  simp only at hnl hr hl hs
  have m8 : ∀ x : BitVec 32, x.toNat < 2 ^ 29 → (x * 8).toNat = x.toNat * 8 := by
    intro x hx
    rw [BitVec.toNat_mul]
    exact Nat.mod_eq_of_lt (by simp; omega)
  cases w
  · have := hnl rfl
    subst this
    simp only [Bool.false_eq_true, ↓reduceIte] at hl hs
    simp only [StartupEntry.readData, Layout.startupEntry, rd, onlyIf, R.opt, Nat.reduceLT, Nat.reduceLeDiff,
      Bool.false_eq_true, ↓reduceIte, List.nil_append]
    rw [rd_vector _ _ _ d _ hr (by decide) (by decide)]
    rw [m8 _ hs, hl]
    rw [if_neg (by omega)]
    rw [rd_list StartupOpt.readData Layout.startupOpt 32 op _ _ d rest (by omega) (fun x _ r => StartupOpt.read_eq x d r)]
    simp [StartupEntry.getSize, rd]; omega
  · simp only [↓reduceIte] at hl hs
    simp only [StartupEntry.readData, Layout.startupEntry, rd, onlyIf, R.opt, Nat.reduceLT, Nat.reduceLeDiff,
      ↓reduceIte]
    rw [rd_vector _ _ _ d _ hr (by decide) (by decide)]
    rw [m8 _ hs, hl]
    rw [if_neg (by omega)]
    rw [rd_list StartupOpt.readData Layout.startupOpt 32 op _ _ d rest (by omega) (fun x _ r => StartupOpt.read_eq x d r)]
    simp [StartupEntry.getSize, rd]; omega

theorem RapEntry.write_eq (e : RapEntry) : e.writeData = ⟨Layout.rapEntry e, .ok (8 * e.getSize)⟩ := by
  cases h : e.with_length <;> simp [RapEntry.writeData, Layout.rapEntry, RapEntry.getSize, wr, h, onlyIf]
theorem RapEntry.size_eq (e : RapEntry) : (Layout.rapEntry e).length = 8 * e.getSize := by
  simp only [Layout.rapEntry, RapEntry.getSize, ll]; cases e.with_length <;> simp
theorem RapEntry.read_eq (e : RapEntry) (wl : Bool) (h : e.Ok wl) (d : List Byte) (rest : List Bool) :
    (RapEntry.readData wl).run d (Layout.rapEntry e ++ rest) = .ok ((8 * e.getSize, e), rest) := by
  obtain ⟨a, b, c, w⟩ := e
  obtain ⟨rfl, h2, h3⟩ := h
  simp only at h2 h3
  cases w
  · have := h2 rfl
    subst this
    simp only [RapEntry.readData, Layout.rapEntry, rd, onlyIf, R.opt, Bool.false_eq_true, ↓reduceIte, List.nil_append,
      Nat.reduceLT, Nat.reduceLeDiff, h3]
    simp [RapEntry.getSize]
  · simp only [RapEntry.readData, Layout.rapEntry, rd, Nat.reduceLT, Nat.reduceLeDiff, h3]
    simp [RapEntry.getSize]

theorem TeleEntry.write_eq (e : TeleEntry) : e.writeData = ⟨Layout.teleEntry e, .ok (8 * e.getSize)⟩ := by
  cases h : e.with_length <;> simp [TeleEntry.writeData, Layout.teleEntry, TeleEntry.getSize, wr, h, onlyIf]
theorem TeleEntry.size_eq (e : TeleEntry) : (Layout.teleEntry e).length = 8 * e.getSize := by
  simp only [Layout.teleEntry, TeleEntry.getSize, ll]; cases e.with_length <;> simp
theorem TeleEntry.read_eq (e : TeleEntry) (wl : Bool) (h : e.Ok wl) (d : List Byte) (rest : List Bool) :
    (TeleEntry.readData wl).run d (Layout.teleEntry e ++ rest) = .ok ((8 * e.getSize, e), rest) := by
  obtain ⟨a, b, c, w⟩ := e
  obtain ⟨rfl, h2, h3⟩ := h
  simp only at h2 h3
  cases w
  · have := h2 rfl
    subst this
    simp only [TeleEntry.readData, Layout.teleEntry, rd, onlyIf, R.opt, Bool.false_eq_true, ↓reduceIte, List.nil_append,
      Nat.reduceLT, Nat.reduceLeDiff, h3]
    simp [TeleEntry.getSize]
  · simp only [TeleEntry.readData, Layout.teleEntry, rd, Nat.reduceLT, Nat.reduceLeDiff, h3]
    simp [TeleEntry.getSize]

theorem grouping_cases (t : Arr4) :
    (isRoll t = true ∧ isAlst t = false ∧ isRap t = false ∧ isTele t = false) ∨
    (isRoll t = false ∧ isAlst t = true ∧ isRap t = false ∧ isTele t = false) ∨
    (isRoll t = false ∧ isAlst t = false ∧ isRap t = true ∧ isTele t = false) ∨
    (isRoll t = false ∧ isAlst t = false ∧ isRap t = false ∧ isTele t = true) ∨
    (isRoll t = false ∧ isAlst t = false ∧ isRap t = false ∧ isTele t = false) := by
  simp only [isRoll, isAlst, isRap, isTele]
  by_cases h1 : t = ⟨0x72#8, 0x6f#8, 0x6c#8, 0x6c#8⟩
  · subst h1; decide
  by_cases h2 : t = ⟨0x70#8, 0x72#8, 0x6f#8, 0x6c#8⟩
  · subst h2; decide
  by_cases h3 : t = ⟨0x61#8, 0x6c#8, 0x73#8, 0x74#8⟩
  · subst h3; decide
  by_cases h4 : t = ⟨0x72#8, 0x61#8, 0x70#8, 0x20#8⟩
  · subst h4; decide
  by_cases h5 : t = ⟨0x74#8, 0x65#8, 0x6c#8, 0x65#8⟩
  · subst h5; decide
  simp [h1, h2, h3, h4, h5]

theorem Sgpd.write_eq (b : Sgpd) : b.writeData = ⟨Layout.sgpd b, .ok (8 * b.getDataSize)⟩ := by
  have h1 := wr_listv RollDistance.writeData Layout.rollDistance RollDistance.getSize b.roll_distances
    (fun x _ => RollDistance.write_eq x)
  have h2 := wr_listv StartupEntry.writeData Layout.startupEntry StartupEntry.getSize b.alternative_startup_entries
    (fun x _ => StartupEntry.write_eq x)
  have h3 := wr_listv RapEntry.writeData Layout.rapEntry RapEntry.getSize b.visual_random_access_entries
    (fun x _ => RapEntry.write_eq x)
  have h4 := wr_listv TeleEntry.writeData Layout.teleEntry TeleEntry.getSize b.temporal_level_entries
    (fun x _ => TeleEntry.write_eq x)
  rcases grouping_cases b.grouping_type with ⟨g1, g2, g3, g4⟩ | ⟨g1, g2, g3, g4⟩ | ⟨g1, g2, g3, g4⟩ |
    ⟨g1, g2, g3, g4⟩ | ⟨g1, g2, g3, g4⟩ <;>
  simp only [Sgpd.writeData, Layout.sgpd, Sgpd.getDataSize, wr, h1, h2, h3, h4, g1, g2, g3, g4, Bool.false_eq_true,
    ↓reduceIte] <;> simp <;> omega
theorem Sgpd.size_eq (b : Sgpd) : (Layout.sgpd b).length = 8 * b.getDataSize := by
  have h1 := ll_listv Layout.rollDistance RollDistance.getSize b.roll_distances (fun x _ => RollDistance.size_eq x)
  have h2 := ll_listv Layout.startupEntry StartupEntry.getSize b.alternative_startup_entries
    (fun x _ => StartupEntry.size_eq x)
  have h3 := ll_listv Layout.rapEntry RapEntry.getSize b.visual_random_access_entries (fun x _ => RapEntry.size_eq x)
  have h4 := ll_listv Layout.teleEntry TeleEntry.getSize b.temporal_level_entries (fun x _ => TeleEntry.size_eq x)
  rcases grouping_cases b.grouping_type with ⟨g1, g2, g3, g4⟩ | ⟨g1, g2, g3, g4⟩ | ⟨g1, g2, g3, g4⟩ |
    ⟨g1, g2, g3, g4⟩ | ⟨g1, g2, g3, g4⟩ <;>
  simp only [Layout.sgpd, Sgpd.getDataSize, ll, h1, h2, h3, h4, g1, g2, g3, g4, Bool.false_eq_true,
    ↓reduceIte] <;> omega

theorem Sgpd.read_eq (b old : Sgpd) (h : b.Ok old) (d : List Byte) (rest : List Bool) :
    (Sgpd.readData old).run d (Layout.sgpd b ++ rest) = .ok ((8 * b.getDataSize, b.stored old), rest) := by
  obtain ⟨k1, k2, k3, k4⟩ := h
  have hnd : ¬ b.version = 1 → ∀ x, noDefaultLength b.version x = false := by
    intro hv x
    have : (b.version == 1#8) = false := by simpa using hv
    simp [noDefaultLength, this]
  rcases grouping_cases b.grouping_type with ⟨g1, g2, g3, g4⟩ | ⟨g1, g2, g3, g4⟩ | ⟨g1, g2, g3, g4⟩ |
    ⟨g1, g2, g3, g4⟩ | ⟨g1, g2, g3, g4⟩
  · obtain ⟨hn, he⟩ := k1 g1
    simp only [Sgpd.readData, Layout.sgpd, rd, Nat.reduceLT, Nat.reduceLeDiff, g1, ↓reduceIte]
    by_cases hv : b.version = 1
    · simp only [if_pos hv]
      rw [rd_listv _ Layout.rollDistance RollDistance.getSize _ _ _ d rest (by simp; omega)
        (fun x hx r => RollDistance.read_eq x _ (he x hx) d r)]
      simp [Sgpd.getDataSize, Sgpd.stored, rd, g1, g2, g3, g4, hv]; omega
    · simp only [if_neg hv]
      rw [rd_listv _ Layout.rollDistance RollDistance.getSize _ _ _ d rest (by simp; omega)
        (fun x hx r => RollDistance.read_eq x _ (by
          have := he x hx; rw [hnd hv] at this ⊢; exact this) d r)]
      have hv' : ¬ b.version = 1#8 := hv
      simp [Sgpd.getDataSize, Sgpd.stored, rd, g1, g2, g3, g4, hv']; omega
  · obtain ⟨hn, he⟩ := k2 g2
    simp only [Sgpd.readData, Layout.sgpd, rd, Nat.reduceLT, Nat.reduceLeDiff, g1, g2, ↓reduceIte, Bool.false_eq_true]
    by_cases hv : b.version = 1
    · simp only [if_pos hv]
      rw [rd_listv _ Layout.startupEntry StartupEntry.getSize _ _ _ d rest (by simp; omega)
        (fun x hx r => StartupEntry.read_eq x _ _ (by
          have := he x hx; rwa [Sgpd.lengthInForce, if_pos hv] at this) d r)]
      simp [Sgpd.getDataSize, Sgpd.stored, rd, g1, g2, g3, g4, hv]; omega
    · simp only [if_neg hv]
      rw [rd_listv _ Layout.startupEntry StartupEntry.getSize _ _ _ d rest (by simp; omega)
        (fun x hx r => StartupEntry.read_eq x _ _ (by
          have := he x hx; rw [hnd hv] at this ⊢; rwa [Sgpd.lengthInForce, if_neg hv] at this) d r)]
      have hv' : ¬ b.version = 1#8 := hv
      simp [Sgpd.getDataSize, Sgpd.stored, rd, g1, g2, g3, g4, hv']; omega
  · obtain ⟨hn, he⟩ := k3 g3
    simp only [Sgpd.readData, Layout.sgpd, rd, Nat.reduceLT, Nat.reduceLeDiff, g1, g2, g3, ↓reduceIte,
      Bool.false_eq_true]
    by_cases hv : b.version = 1
    · simp only [if_pos hv]
      rw [rd_listv _ Layout.rapEntry RapEntry.getSize _ _ _ d rest (by simp; omega)
        (fun x hx r => RapEntry.read_eq x _ (he x hx) d r)]
      simp [Sgpd.getDataSize, Sgpd.stored, rd, g1, g2, g3, g4, hv]; omega
    · simp only [if_neg hv]
      rw [rd_listv _ Layout.rapEntry RapEntry.getSize _ _ _ d rest (by simp; omega)
        (fun x hx r => RapEntry.read_eq x _ (by
          have := he x hx; rw [hnd hv] at this ⊢; exact this) d r)]
      have hv' : ¬ b.version = 1#8 := hv
      simp [Sgpd.getDataSize, Sgpd.stored, rd, g1, g2, g3, g4, hv']; omega
  · obtain ⟨hn, he⟩ := k4 g4
    simp only [Sgpd.readData, Layout.sgpd, rd, Nat.reduceLT, Nat.reduceLeDiff, g1, g2, g3, g4, ↓reduceIte,
      Bool.false_eq_true]
    by_cases hv : b.version = 1
    · simp only [if_pos hv]
      rw [rd_listv _ Layout.teleEntry TeleEntry.getSize _ _ _ d rest (by simp; omega)
        (fun x hx r => TeleEntry.read_eq x _ (he x hx) d r)]
      simp [Sgpd.getDataSize, Sgpd.stored, rd, g1, g2, g3, g4, hv]; omega
    · simp only [if_neg hv]
      rw [rd_listv _ Layout.teleEntry TeleEntry.getSize _ _ _ d rest (by simp; omega)
        (fun x hx r => TeleEntry.read_eq x _ (by
          have := he x hx; rw [hnd hv] at this ⊢; exact this) d r)]
      have hv' : ¬ b.version = 1#8 := hv
      simp [Sgpd.getDataSize, Sgpd.stored, rd, g1, g2, g3, g4, hv']; omega
  · simp only [Sgpd.readData, Layout.sgpd, rd, Nat.reduceLT, Nat.reduceLeDiff, g1, g2, g3, g4, ↓reduceIte,
      Bool.false_eq_true, List.nil_append, List.append_nil]
    by_cases hv : b.version = 1
    · simp [Sgpd.getDataSize, Sgpd.stored, rd, g1, g2, g3, g4, hv]
    · have hv' : ¬ b.version = 1#8 := hv
      simp [Sgpd.getDataSize, Sgpd.stored, rd, g1, g2, g3, g4, hv']

end Mp4
