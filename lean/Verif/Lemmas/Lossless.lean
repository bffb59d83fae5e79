import Verif.Spec.Lossless
import Verif.Props.Rewrite
import Verif.Props.ReadExact
import Verif.Props.Reader
import Verif.Props.Header
import Verif.Lemmas.Held
import Verif.Lemmas.MemoryReader

/-! # Trees read from a file, and the bytes they came from -/

namespace Mp4
open R

namespace Lossless

/-! ### whole bytes -/

abbrev W8 {α : Type} (p : R (Nat × α)) : Prop := Gives p fun m _ => m % 8 = 0

theorem w8_string (n : Nat) : W8 (read_string n) := by
  rw [read_string]
  generalize (n + 7) / 8 = k
  induction k with
  | zero => exact Ensures.ret rfl
  | succ k ih =>
    rw [readStringGo]
    simp only [bind_eq, pure_eq]
    refine Ensures.bind (Ensures.any _) fun v _ => ?_
    refine Ensures.ite (Ensures.ret rfl) ?_
    exact Ensures.bind2 ih fun m a h => Ensures.ret (by dsimp only at h ⊢; omega)

theorem w8_fb : W8 FullBox.readVersionAndFlag := whole_fullBox
theorem w8_uint (w n : Nat) (h : n ≤ 64) (h8 : n % 8 = 0) : W8 (read_uint w n) := whole_read_uint w n h h8
theorem w8_vec (n w : Nat) (h : w ≤ 64) (h8 : w % 8 = 0) : W8 (read_vector_uint w n) := whole_readN (whole_read_uint w w h h8) n
theorem w8_array4 : W8 read_array_uint8_4 := whole_read_array4

theorem w8_bytes (n : Nat) : W8 (readBytes8 n) := by
  induction n with
  | zero => exact Ensures.ret rfl
  | succ k ih =>
    rw [readBytes8]
    simp only [bind_eq, pure_eq]
    refine Ensures.bind (Ensures.any _) fun v _ => ?_
    exact Ensures.bind2 ih fun m a h => Ensures.ret (by dsimp only at h ⊢; omega)

theorem w8_url (old : Url) : W8 (Url.readData old) := by
  simp only [Url.readData, bind_eq, pure_eq]
  refine Ensures.bind2 w8_fb fun m0 _ h0 => ?_
  refine Ensures.ite (Ensures.bindEnd fun _ => ?_) (Ensures.ret h0)
  exact Ensures.bind2 (w8_string _) fun m1 _ h1 => Ensures.ret (by dsimp only; omega)

theorem w8_urn (old : Urn) : W8 (Urn.readData old) := by
  simp only [Urn.readData, bind_eq, pure_eq]
  refine Ensures.bind2 w8_fb fun m0 _ h0 => ?_
  refine Ensures.ite (Ensures.ret h0) (Ensures.bindEnd fun _ => ?_)
  refine Ensures.bind2 (w8_string _) fun m1 _ h1 => ?_
  exact Ensures.bind2 (w8_string _) fun m2 _ h2 => Ensures.ret (by dsimp only; omega)

theorem w8_emsgTail (r : Nat) (h : r % 8 = 0) (b : Emsg) : W8 (Emsg.readTail r b) := by
  simp only [Emsg.readTail, bind_eq, pure_eq]
  refine Ensures.bindEnd fun _ => ?_
  exact Ensures.bind2 (w8_vec _ _ (by decide) (by decide)) fun m2 _ h2 => Ensures.ret (by dsimp only; omega)

theorem w8_emsg : W8 Emsg.readData := by
  have u := fun w => w8_uint w 32 (by decide) (by decide)
  simp only [Emsg.readData, bind_eq]
  refine Ensures.bind2 w8_fb fun m0 _ h0 => ?_
  refine Ensures.ite ?_ ?_
  · refine Ensures.bindEnd fun _ => ?_
    refine Ensures.bind2 (w8_string _) fun m1 _ h1 => ?_
    refine Ensures.bind2 (w8_string _) fun m2 _ h2 => ?_
    refine Ensures.bind2 (u _) fun m3 _ h3 => ?_
    refine Ensures.bind2 (u _) fun m4 _ h4 => ?_
    refine Ensures.bind2 (u _) fun m5 _ h5 => ?_
    refine Ensures.bind2 (u _) fun m6 _ h6 => ?_
    exact w8_emsgTail _ (by omega) _
  · refine Ensures.bind2 (u _) fun m3 _ h3 => ?_
    refine Ensures.bind2 (w8_uint _ 64 (by decide) (by decide)) fun m4 _ h4 => ?_
    refine Ensures.bind2 (u _) fun m5 _ h5 => ?_
    refine Ensures.bind2 (u _) fun m6 _ h6 => ?_
    refine Ensures.bindEnd fun _ => ?_
    refine Ensures.bind2 (w8_string _) fun m1 _ h1 => ?_
    refine Ensures.bind2 (w8_string _) fun m2 _ h2 => ?_
    exact w8_emsgTail _ (by omega) _

theorem w8_stsz : W8 Stsz.readData := by
  have u := fun w => w8_uint w 32 (by decide) (by decide)
  simp only [Stsz.readData, bind_eq, pure_eq]
  refine Ensures.bind2 w8_fb fun m0 _ h0 => ?_
  refine Ensures.bind2 (u _) fun m1 _ h1 => ?_
  refine Ensures.bind2 (u _) fun m2 _ h2 => ?_
  refine Ensures.ite ?_ (Ensures.ret (by dsimp only; omega))
  exact Ensures.bind2 (w8_vec _ _ (by decide) (by decide)) fun m3 _ h3 => Ensures.ret (by dsimp only; omega)

theorem w8_hdlr : W8 Hdlr.readData := by
  simp only [Hdlr.readData, bind_eq, pure_eq]
  refine Ensures.bind2 w8_fb fun m0 _ h0 => ?_
  refine Ensures.bind2 (w8_uint _ 32 (by decide) (by decide)) fun m1 _ h1 => ?_
  refine Ensures.bind2 w8_array4 fun m2 _ h2 => ?_
  refine Ensures.bind2 w8_array4 fun m3 _ h3 => ?_
  refine Ensures.bind2 w8_array4 fun m4 _ h4 => ?_
  refine Ensures.bind2 w8_array4 fun m5 _ h5 => ?_
  refine Ensures.bindEnd fun k => ?_
  refine Ensures.ite ?_ ?_ <;> refine Ensures.bind2 (P := fun _ _ => True) (Ensures.any _) fun n _ _ => ?_
  all_goals
    split
    · exact Ensures.throw
    · next hx =>
      exact Ensures.bind2 (w8_vec _ _ (by decide) (by decide)) fun m3 _ h3 => Ensures.ret (by dsimp only at hx ⊢; omega)

theorem w8_iods : W8 Iods.readData := by
  have u := w8_uint 8 8 (by decide) (by decide)
  simp only [Iods.readData, bind_eq, pure_eq]
  refine Ensures.bind2 w8_fb fun m0 _ h0 => ?_
  refine Ensures.bind2 u fun m1 _ h1 => ?_
  refine Ensures.bind2 (P := fun m _ => m % 8 = 0) (whole_read_uvarint _) fun m2 len h2 => ?_
  refine Ensures.bind2 (w8_uint 16 16 (by decide) (by decide)) fun m3 _ h3 => ?_
  refine Ensures.bind2 u fun m4 _ h4 => ?_
  refine Ensures.bind2 u fun m5 _ h5 => ?_
  refine Ensures.bind2 u fun m6 _ h6 => ?_
  refine Ensures.bind2 u fun m7 _ h7 => ?_
  refine Ensures.bind2 u fun m8 _ h8 => Ensures.ret ?_
  have : ((len - 7#32) * 8#32).toNat % 8 = 0 := by
    simp only [BitVec.toNat_mul, BitVec.toNat_ofNat]
    omega
  dsimp only
  omega

/-! ### one box -/

theorem bytes_of_bits {d : List Byte} {c s' : List Bool} {n : Nat} (h : bytesBits d = c ++ s') (hc : c.length = 8 * n) :
    toBytes c = d.take n ∧ n ≤ d.length := by
  have hl := congrArg List.length h
  simp only [List.length_append, bytesBits_length] at hl
  have hn : n ≤ d.length := by omega
  refine ⟨?_, hn⟩
  have e : bytesBits (d.take n) ++ bytesBits (d.drop n) = c ++ s' := by
    rw [← h, ← bytesBits_append, List.take_append_drop]
  have := (List.append_inj e (by rw [bytesBits_length, List.length_take, Nat.min_eq_left hn, hc])).1
  rw [← this, toBytes_bytesBits]

/-- What was consumed is what is written, when the place of the first child is known to agree with the size. -/
theorem own {env : Env} {t : BoxType} {wave : Bool} {k : Kind} {d : List Byte} {m : Nat} {b : BoxData} {s' : List Bool}
    (h : (BoxData.readData env t wave k).run d (bytesBits d) = .ok ((m, b), s'))
    (hk : (b.kind.oneForm wave = true ∧ b.kind ≠ .avcC) ∨
      (b.LengthDetermines ∧ (∀ x, b = .iods x → x.descriptor_length = 7) ∧
        (m / 8 = b.getDataSize ∨ (d.length = b.getDataSize ∧ d.length ≤ m / 8)))) :
    m / 8 ≤ d.length ∧ toBytes b.writeData.out = d.take (m / 8) ∧ b.writeData.out.length = 8 * (m / 8) := by
  have hkind := BoxData.readData_kind h
  obtain ⟨-, hw⟩ := C62_writable env t wave k d m b s' h
  suffices hh : bytesBits d = b.writeData.out ++ s' ∧ b.getDataSize = m / 8 by
    obtain ⟨h1, h2⟩ := bytes_of_bits hh.1 hw
    rw [hh.2] at h1 h2
    exact ⟨h2, h1, by rw [hw, hh.2]⟩
  rw [hkind] at hk
  have one : k.oneForm wave = true → k ≠ .avcC → bytesBits d = b.writeData.out ++ s' ∧ b.getDataSize = m / 8 := by
    intro h1 h2
    have e := C62_rewrite env t wave k h1 d m b s' h
    refine ⟨e, ?_⟩
    obtain ⟨g1, g2⟩ := C25_exact env t wave k ⟨(by rintro rfl; cases h1), (by rintro rfl; cases h1), h2⟩ d m b s' h
    have l1 := congrArg List.length e
    have l2 := congrArg List.length g2
    simp only [List.length_append, List.length_drop, bytesBits_length] at l1 l2
    omega
  rcases hk with ⟨h1, h2⟩ | ⟨h1, h2, h3⟩
  · exact one h1 h2
  have whole : k ≠ .iods → k ≠ .esds → k ≠ .avcC → m % 8 = 0 → bytesBits d = b.writeData.out ++ s' ∧ b.getDataSize = m / 8 := by
    intro k1 k2 k3 h8
    obtain ⟨g1, g2⟩ := C25_exact env t wave k ⟨k1, k2, k3⟩ d m b s' h
    have l2 := congrArg List.length g2
    simp only [List.length_drop, bytesBits_length] at l2
    have hs : b.getDataSize = m / 8 := by omega
    exact ⟨C62_rewrite_same_size env t wave k d m b s' h h1 (by omega), hs⟩
  have w8 : ∀ {α : Type} {p : R (Nat × α)} {C : α → BoxData}, W8 p → (p.bind fun x => .ret (x.1, C x.2)).run d (bytesBits d) = .ok ((m, b), s') →
      m % 8 = 0 := by
    intro α p C hp hr
    obtain ⟨a, -, hr⟩ := box_inv hr
    exact hp d _ _ _ hr
  cases k with
  | url => exact whole (by simp) (by simp) (by simp) (w8 (w8_url _) h)
  | urn => exact whole (by simp) (by simp) (by simp) (w8 (w8_urn _) h)
  | emsg => exact whole (by simp) (by simp) (by simp) (w8 w8_emsg h)
  | hdlr => exact whole (by simp) (by simp) (by simp) (w8 w8_hdlr h)
  | stsz => exact whole (by simp) (by simp) (by simp) (w8 w8_stsz h)
  | esds => obtain ⟨a, rfl, -⟩ := box_inv h; exact h1.elim
  | metaBox => obtain ⟨a, rfl, -⟩ := box_inv h; exact h1.elim
  | iods =>
    obtain ⟨x, rfl, c, hc, e, hm⟩ := C25_iods env t wave d m b s' h
    have h7 := h2 x rfl
    rw [h7] at hm
    have l2 := congrArg List.length e
    simp only [List.length_drop, bytesBits_length] at l2
    have hm' : m = c := by rw [hm]; rfl
    subst hm'
    have h8 : m % 8 = 0 := w8 w8_iods h
    have hs : (BoxData.iods x).getDataSize = m / 8 := by omega
    exact ⟨C62_rewrite_same_size env t wave .iods d m _ s' h h1 (by omega), hs⟩
  | avcC =>
    obtain ⟨c, hc, e, hm⟩ := C25_avcC env t wave d m b s' h
    have e' := C62_rewrite env t wave .avcC rfl d m b s' h
    have l1 := congrArg List.length e'
    have l2 := congrArg List.length e
    simp only [List.length_append, List.length_drop, bytesBits_length] at l1 l2
    exact ⟨e', by omega⟩
  | audio =>
    cases wave with
    | false => exact one rfl (by simp)
    | true =>
      obtain ⟨a, rfl, h'⟩ := box_inv h
      have := (AudioSampleEntry.read_below_wave _ rfl d _ _ a s' h').1
      rw [BoxData.LengthDetermines, this] at h1
      cases h1
  | _ => exact one rfl (by simp)

/-! ### the header -/

theorem beBytes_be32 (a b c d : Byte) : beBytes 4 (be_to_uint32 a b c d).toNat = [a, b, c, d] := by
  rw [be_to_uint32_toNat]
  simp only [beBytes]
  congr 1
  · apply BitVec.eq_of_toNat_eq; simp only [BitVec.toNat_ofNat]; omega
  congr 1
  · apply BitVec.eq_of_toNat_eq; simp only [BitVec.toNat_ofNat]; omega
  congr 1
  · apply BitVec.eq_of_toNat_eq; simp only [BitVec.toNat_ofNat]; omega
  congr 1
  apply BitVec.eq_of_toNat_eq; simp only [BitVec.toNat_ofNat]; omega

theorem beBytes_be64 (a b c d e f g h : Byte) : beBytes 8 (be_to_uint64 a b c d e f g h).toNat = [a, b, c, d, e, f, g, h] := by
  rw [be_to_uint64_toNat]
  simp only [beBytes]
  iterate 7
    congr 1
    · apply BitVec.eq_of_toNat_eq; simp only [BitVec.toNat_ofNat]; omega
  congr 1
  apply BitVec.eq_of_toNat_eq; simp only [BitVec.toNat_ofNat]; omega

/-- The bytes at which a header was read are those that `write` produces for it. -/
theorem header_bytes (d : List Byte) (o : Nat) (h : BoxHeader) (hr : read_box_header ⟨d, o⟩ = .ok h) :
    slice d h.offset h.headerSize = h.headerBytes ∧ h.headerBytes = Spec.headerOf h ∧ h.headerBytes.length = h.headerSize := by
  unfold read_box_header at hr
  dsimp only at hr
  by_cases h8 : sub64 d.length o < SMALL_HEADER_SIZE
  · rw [if_pos h8] at hr; cases hr
  rw [if_neg h8] at hr
  by_cases hle : d.length < o
  · rw [if_pos hle] at hr; cases hr
  rw [if_neg hle] at hr
  have hsl : ∀ n, slice d o n = (d.drop o).take n := fun _ => rfl
  generalize d.drop o = dd at hr hsl
  match dd, hr with
  | a :: b :: c :: d' :: t0 :: t1 :: t2 :: t3 :: more, hr =>
    dsimp only at hr
    have h32 := beBytes_be32 a b c d'
    by_cases h0 : (be_to_uint32 a b c d').toNat = 0
    · rw [if_pos h0] at hr
      rw [h0] at h32
      cases hr
      dsimp only
      rw [hsl, BoxHeader.headerBytes, Spec.headerOf]
      dsimp only
      rw [if_pos rfl, if_pos rfl, h32]
      have : [a, b, c, d'] = [0, 0, 0, 0] := by rw [← h32]; rfl
      simp only [List.cons.injEq] at this
      obtain ⟨rfl, rfl, rfl, rfl, -⟩ := this
      exact ⟨rfl, rfl, rfl⟩
    rw [if_neg h0] at hr
    by_cases h1 : (be_to_uint32 a b c d').toNat = 1
    · rw [if_pos h1] at hr
      rw [h1] at h32
      have : [a, b, c, d'] = [0, 0, 0, 1] := by rw [← h32]; rfl
      simp only [List.cons.injEq] at this
      obtain ⟨rfl, rfl, rfl, rfl, -⟩ := this
      by_cases h16 : sub64 d.length o < LARGE_HEADER_SIZE
      · rw [if_pos h16] at hr; cases hr
      rw [if_neg h16] at hr
      match more, hr with
      | e0 :: e1 :: e2 :: e3 :: e4 :: e5 :: e6 :: e7 :: _, hr =>
        cases hr
        dsimp only
        rw [hsl, BoxHeader.headerBytes, Spec.headerOf]
        dsimp only
        rw [if_neg (by simp), if_neg (by simp), if_neg (by simp [LARGE_HEADER_SIZE]), if_neg (by simp [LARGE_HEADER_SIZE]), uint64_to_be_beBytes, beBytes_be64, h32]
        exact ⟨rfl, rfl, rfl⟩
    · rw [if_neg h1] at hr
      have hlt := (be_to_uint32 a b c d').isLt
      cases hr
      dsimp only
      rw [hsl, BoxHeader.headerBytes, Spec.headerOf]
      dsimp only
      simp only [Bool.false_eq_true, if_false]
      rw [if_pos ⟨by unfold UINT32_MAX; omega, by decide⟩, if_pos (by rfl), uint32_to_be_beBytes, h32]
      exact ⟨rfl, rfl, rfl⟩

/-! ### what a reader leaves in a tree -/

variable (sr : SimpleReader)

mutual
/-- The box, for a parent that is a `wave` box when `wave`, and the boxes below it were read by `sr`. -/
def Loaded (wave : Bool) : Tree → Prop
  | .node b _ ls => ∃ h n, b.header = some h ∧ read_box_header ⟨sr.data, h.offset⟩ = .ok h ∧ sr.readContent wave h = .ok (b, n) ∧
      (ls = [] → h.getDataSize ≤ n) ∧ (∀ t us, ls = t :: us → ∃ h', t.box.header = some h' ∧ h'.offset = h.offset + h.headerSize + n) ∧
      LoadedList (b.type = fourcc "wave") ls
def LoadedList (wave : Bool) : List Tree → Prop
  | [] => True
  | t :: ts => Loaded wave t ∧ LoadedList wave ts
end

theorem loop_loaded (fuel : Nat)
    (ih : ∀ path wave pos vs size t pos', sr.readBox fuel path wave pos = some ⟨vs, .ok (size, t, pos')⟩ →
      Loaded sr wave t ∧ ∃ h, t.box.header = some h ∧ h.offset = pos) :
    ∀ n path wave limit done pos vs ts pos', SimpleReader.readLoop (sr.readBox fuel path wave) limit n done pos = some ⟨vs, .ok (ts, pos')⟩ →
      LoadedList sr wave ts ∧ (ts = [] → limit ≤ done) ∧ (∀ t us, ts = t :: us → ∃ h, t.box.header = some h ∧ h.offset = pos) := by
  intro n path wave limit
  induction n with
  | zero => intro _ _ _ _ _ h; rw [SimpleReader.readLoop] at h; cases h
  | succ n ihn =>
    intro done pos vs ts pos' hr
    rw [SimpleReader.readLoop] at hr
    split at hr
    · split at hr
      · cases hr
      · cases hr
      · rename_i us size t e hk
        have k := ih _ _ _ _ _ _ _ hk
        split at hr
        · cases hr
        · cases hr
        · rename_i ws ts' e' hq
          cases hr
          have q := ihn _ _ _ _ _ hq
          refine ⟨⟨k.1, q.1⟩, (fun h => by cases h), ?_⟩
          intro t' us' he
          cases he
          exact k.2
    · next hn =>
      cases hr
      exact ⟨trivial, fun _ => Nat.le_of_not_lt hn, (fun _ _ h => by cases h)⟩

theorem readBox_loaded (hl : sr.data.length < 2 ^ 64) (fuel : Nat) :
    ∀ path wave pos vs size t pos', sr.readBox fuel path wave pos = some ⟨vs, .ok (size, t, pos')⟩ →
      Loaded sr wave t ∧ ∃ h, t.box.header = some h ∧ h.offset = pos := by
  induction fuel with
  | zero => intro _ _ _ _ _ _ _ h; rw [SimpleReader.readBox] at h; cases h
  | succ fuel ih =>
    intro path wave pos vs size t pos' hr
    rw [sr.readBox_succ] at hr
    generalize hh : read_box_header ⟨sr.data, pos⟩ = x at hr
    cases x with
    | error e => rw [sr.body_header_error hh] at hr; cases hr
    | ok h =>
      generalize hc : sr.readContent wave h = y at hr
      cases y with
      | error e => rw [sr.body_content_error hh hc] at hr; cases hr
      | ok x =>
        obtain ⟨b, rbytes⟩ := x
        rw [sr.body_ok hh hc] at hr
        have ho := (read_box_header_ok sr.data pos h hl hh).1
        split at hr
        · cases hr
        · cases hr
        · rename_i us leafs e hk
          cases hr
          have q := loop_loaded sr fuel ih _ _ _ _ _ _ _ _ _ hk
          have hb := (sr.readContent_ok hc).2.1
          exact ⟨⟨h, rbytes, hb, by rw [ho]; exact hh, hc, q.2.1, q.2.2, q.1⟩, h, hb, ho⟩

theorem read_loaded (hl : sr.data.length < 2 ^ 64) (vs : List BoxHeader) (ts : List Tree) (hr : sr.read = some ⟨vs, .ok ts⟩) :
    LoadedList sr false ts := by
  rw [SimpleReader.read, SimpleReader.readWith] at hr
  split at hr
  · cases hr
  · cases hr
  · next hk =>
    cases hr
    exact (loop_loaded sr _ (readBox_loaded sr hl _) _ _ _ _ _ _ _ _ _ hk).1

theorem run_of_runC {α : Type} (p : R α) (d : List Byte) {a : α} {r : Reader} (h : p.runC (Reader.new ⟨d, 0⟩) = .ok (a, r)) :
    ∃ s', p.run d (bytesBits d) = .ok (a, s') := by
  have hrc := R.runC_run p (Reader.new ⟨d, 0⟩) (Reader.new_inv _ (Nat.zero_le _))
  have hrem : (Reader.new ⟨d, 0⟩).rem = bytesBits d := by simp [Reader.rem, Reader.new, natBits]
  have hdat : (Reader.new ⟨d, 0⟩).is.data = d := rfl
  rw [hrem, hdat, h] at hrc
  cases hq : p.run d (bytesBits d) with
  | error e => rw [hq] at hrc; cases hrc
  | ok x =>
    obtain ⟨a', s⟩ := x
    rw [hq] at hrc
    obtain ⟨r', e, -⟩ := hrc
    cases e
    exact ⟨s, rfl⟩

/-- The call of `readData` behind a `Loaded` box. -/
theorem content_run {wave : Bool} {h : BoxHeader} {b : Box} {n : Nat} (hc : sr.readContent wave h = .ok (b, n)) :
    ∃ t k m s', (BoxData.readData (sr.env h.offset) t wave k).run (slice sr.data (h.offset + h.headerSize) h.getDataSize)
      (bytesBits (slice sr.data (h.offset + h.headerSize) h.getDataSize)) = .ok ((m, b.data), s') ∧ n = m / 8 := by
  rcases Mem.readContent_cases sr wave h with ⟨-, h2⟩ | ⟨-, ⟨e, -, h2⟩ | ⟨m, data, rd, h2, ⟨-, h3⟩ | ⟨-, h3⟩⟩⟩
  · rw [h2] at hc; cases hc
  · rw [h2] at hc; cases hc
  · rw [h3] at hc; cases hc
  · rw [h3] at hc
    obtain ⟨s, hs⟩ := run_of_runC _ _ h2
    have hc := Except.ok.inj hc
    have h4 : data = b.data := congrArg (fun x => x.1.data) hc
    have h5 : m / 8 = n := congrArg Prod.snd hc
    rw [h4] at hs
    exact ⟨_, _, m, s, hs, h5.symm⟩

/-! ### trees -/

mutual
theorem tiled_le : ∀ (t : Tree) (o e : Nat), t.Tiled o e → o ≤ e
  | .node b p ls, o, e, h => by
    rw [Tree.Tiled] at h
    obtain ⟨h, -, -, he, -⟩ := h
    omega
theorem tiledList_le : ∀ (ts : List Tree) (s e : Nat), Tree.TiledList ts s e → s ≤ e
  | [], s, e, h => by rw [Tree.TiledList] at h; omega
  | t :: ts, s, e, h => by
    rw [Tree.TiledList] at h
    obtain ⟨m, h1, h2⟩ := h
    exact Nat.le_trans (tiled_le t s m h1) (tiledList_le ts m e h2)
end

theorem tiled_header {t : Tree} {o e : Nat} (h : t.Tiled o e) : ∃ hd, t.box.header = some hd ∧ hd.offset = o ∧ o + hd.size = e := by
  cases t with
  | node b p ls =>
    rw [Tree.Tiled] at h
    obtain ⟨hd, h1, h2, h3, -⟩ := h
    exact ⟨hd, h1, h2, h3⟩

theorem tiled_sum : ∀ (ts : List Tree) (s e : Nat), Tree.TiledList ts s e → s + (ts.map Tree.statedSize).sum = e
  | [], s, e, h => by rw [Tree.TiledList] at h; simpa using h
  | t :: ts, s, e, h => by
    rw [Tree.TiledList] at h
    obtain ⟨m, h1, h2⟩ := h
    obtain ⟨hd, e1, -, e3⟩ := tiled_header h1
    have := tiled_sum ts m e h2
    simp only [List.map_cons, List.sum_cons, Tree.statedSize, e1, Option.elim]
    omega

theorem slice_append (d : List Byte) (a m e : Nat) (h1 : a ≤ m) (h2 : m ≤ e) : slice d a (m - a) ++ slice d m (e - m) = slice d a (e - a) := by
  unfold slice
  rw [show e - a = (m - a) + (e - m) by omega, List.take_add, List.drop_drop]
  congr 4
  omega

theorem slice_length (d : List Byte) (a n : Nat) (h : a + n ≤ d.length) : (slice d a n).length = n := by
  unfold slice
  rw [List.length_take, List.length_drop]
  omega

theorem take_slice (d : List Byte) (a n k : Nat) (h : k ≤ n) : (slice d a n).take k = slice d a k := by
  unfold slice
  rw [List.take_take, Nat.min_eq_left h]

/-- `Box::write` of a box with a header that was read. -/
theorem box_written (b : Box) (h : BoxHeader) (os : OStream) (hb : b.header = some h) (hh : h.headerBytes.length = h.headerSize) (hs : h.size < 2 ^ 64)
    (hw : b.data.writeData.res = .ok (8 * b.data.getDataSize)) :
    b.write os = (.ok (h.size + 8 * b.data.getDataSize), b, (os.seekp h.offset).write (h.headerBytes ++ toBytes b.data.writeData.out)) := by
  have ha : h.afterWrite = h := by
    rw [BoxHeader.afterWrite, hh]
    have : u64 (h.size + sub64 h.headerSize h.headerSize) = h.size := by simp only [u64, sub64]; omega
    rw [this]
  rw [Box.write, hb]
  simp only [BoxHeader.write, ha, W.runC]
  rw [hw, OStream.write_append]
  obtain ⟨-, hp, -⟩ := Writer.push_spec (Writer.new ((os.seekp h.offset).write h.headerBytes)) (Writer.new_inv _) b.data.writeData.out
  rw [hp, Writer.new_pending, List.nil_append, ← hb]
  rfl

mutual
theorem tree_image (hlen : sr.data.length < 2 ^ 64) : ∀ (t : Tree) (wave : Bool) (o e : Nat), Loaded sr wave t → t.Tiled o e → t.Lossless wave →
    e ≤ sr.data.length →
    t.image = slice sr.data o (e - o) ∧ ∀ os, t.write os = (.ok (), t, (os.seekp o).write (slice sr.data o (e - o)))
  | .node b p ls, wave, o, e, hl, ht, hk, he => by
    rw [Loaded] at hl
    rw [Tree.Tiled] at ht
    rw [Tree.Lossless] at hk
    obtain ⟨h, n, hb, hh, hc, l1, l2, l3⟩ := hl
    obtain ⟨h', hb', t1, t2, t3, t4⟩ := ht
    obtain ⟨k1, k2⟩ := hk
    obtain rfl : h = h' := by rw [hb] at hb'; exact Option.some.inj hb'
    obtain ⟨-, g8, -, g64⟩ := read_box_header_ok _ _ _ hlen hh
    obtain ⟨f1, f2, f3⟩ := header_bytes _ _ _ hh
    obtain ⟨t, k, m, s', hr, hn⟩ := content_run sr hc
    have hds : h.getDataSize = h.size - h.headerSize := sub64_eq t3 g64
    have hdl := slice_length sr.data (h.offset + h.headerSize) h.getDataSize (by omega)
    have hw := (C62_writable _ _ _ _ _ _ _ _ hr).1
    -- where the children are
    have hst : (ls = [] ∧ h.getDataSize ≤ n) ∨ Tree.TiledList ls (h.offset + h.headerSize + n) e := by
      cases ls with
      | nil => exact .inl ⟨rfl, l1 rfl⟩
      | cons x xs =>
        right
        rcases t4 with t4 | ⟨s, -, t4⟩
        · cases t4
        obtain ⟨h2, e1, e2⟩ := l2 x xs rfl
        have t5 := t4
        rw [Tree.TiledList] at t5
        obtain ⟨_, t5, -⟩ := t5
        obtain ⟨h3, e3, e4, -⟩ := tiled_header t5
        rw [e1] at e3
        cases e3
        rw [← e2, e4]
        exact t4
    have hown := own hr (by
      rcases k1 with k1 | ⟨c1, c2, c3⟩
      · exact .inl k1
      refine .inr ⟨c2, c3, ?_⟩
      have hsz := c1 h hb
      rw [hdl, ← hn]
      rcases hst with ⟨rfl, h1⟩ | h1
      · simp only [List.map_nil, List.sum_nil] at hsz
        right
        omega
      · have := tiled_sum _ _ _ h1
        left
        omega)
    rw [← hn, hdl] at hown
    obtain ⟨o1, o2, o3⟩ := hown
    rw [take_slice _ _ _ _ o1] at o2
    have hend : ls = [] → n = h.getDataSize := fun hx => Nat.le_antisymm o1 (l1 hx)
    have ih := list_image hlen ls (decide (b.type = fourcc "wave")) (h.offset + h.headerSize + n) e l3 (by
      rcases hst with ⟨rfl, h1⟩ | h1
      · rw [Tree.TiledList]; omega
      · exact h1) k2 he
    have hcat : h.headerBytes ++ toBytes b.data.writeData.out ++ slice sr.data (h.offset + h.headerSize + n) (e - (h.offset + h.headerSize + n)) =
        slice sr.data o (e - o) := by
      have a1 := slice_append sr.data o (o + h.headerSize) (o + h.headerSize + n) (by omega) (by omega)
      have a2 := slice_append sr.data o (o + h.headerSize + n) e (by omega) (by omega)
      rw [← a2, ← a1, ← t1, ← f1, o2]
      congr 3 <;> omega
    constructor
    · rw [Tree.image, hb, ih.1, ← hcat, f2]
      simp
    · intro os
      rw [Tree.write, box_written b h os hb f3 g64 hw]
      dsimp only
      have hlen2 : (toBytes b.data.writeData.out).length = n := by
        rw [o2, slice_length]; omega
      rw [ih.2 _ (by rw [OStream.write_pos, List.length_append, f3, hlen2]; simp only [OStream.seekp]; omega)]
      rw [← OStream.write_append, hcat, t1]
theorem list_image (hlen : sr.data.length < 2 ^ 64) : ∀ (ts : List Tree) (wave : Bool) (s e : Nat), LoadedList sr wave ts → Tree.TiledList ts s e →
    Tree.LosslessList wave ts → e ≤ sr.data.length →
    Tree.imageList ts = slice sr.data s (e - s) ∧ ∀ os, os.pos = s → Tree.writeList ts os = (.ok (), ts, os.write (slice sr.data s (e - s)))
  | [], wave, s, e, hl, ht, hk, he => by
    rw [Tree.TiledList] at ht
    subst ht
    have : slice sr.data s (s - s) = [] := by unfold slice; simp
    rw [this]
    exact ⟨rfl, fun os _ => by rw [Tree.writeList]; simp [OStream.write]⟩
  | t :: ts, wave, s, e, hl, ht, hk, he => by
    rw [LoadedList] at hl
    rw [Tree.TiledList] at ht
    rw [Tree.LosslessList] at hk
    obtain ⟨m, t1, t2⟩ := ht
    have le1 := tiled_le _ _ _ t1
    have le2 := tiledList_le _ _ _ t2
    have i1 := tree_image hlen t wave s m hl.1 t1 hk.1 (by omega)
    have i2 := list_image hlen ts wave m e hl.2 t2 hk.2 he
    constructor
    · rw [Tree.imageList, i1.1, i2.1, slice_append _ _ _ _ le1 le2]
    · intro os hp
      rw [Tree.writeList, i1.2, ← hp]
      dsimp only
      have hpos : ((os.seekp os.pos).write (slice sr.data os.pos (m - os.pos))).pos = m := by
        rw [OStream.write_pos, slice_length _ _ _ (by omega)]
        simp only [OStream.seekp]
        omega
      rw [i2.2 _ hpos, ← slice_append sr.data os.pos m e (by omega) le2, OStream.write_append]
      rfl
end

mutual
theorem tree_saved (hlen : sr.data.length < 2 ^ 64) : ∀ (t : Tree) (wave : Bool), Loaded sr wave t → ∀ os, ∃ os', t.write os = (.ok (), t, os')
  | .node b p ls, wave, hl, os => by
    rw [Loaded] at hl
    obtain ⟨h, n, hb, hh, hc, -, -, l3⟩ := hl
    obtain ⟨-, -, -, g64⟩ := read_box_header_ok _ _ _ hlen hh
    obtain ⟨-, -, f3⟩ := header_bytes _ _ _ hh
    obtain ⟨t, k, m, s', hr, hn⟩ := content_run sr hc
    have hw := (C62_writable _ _ _ _ _ _ _ _ hr).1
    obtain ⟨os', e⟩ := list_saved hlen ls _ l3 ((os.seekp h.offset).write (h.headerBytes ++ toBytes b.data.writeData.out))
    rw [Tree.write, box_written b h os hb f3 g64 hw]
    dsimp only
    rw [e]
    exact ⟨os', rfl⟩
theorem list_saved (hlen : sr.data.length < 2 ^ 64) : ∀ (ts : List Tree) (wave : Bool), LoadedList sr wave ts →
    ∀ os, ∃ os', Tree.writeList ts os = (.ok (), ts, os')
  | [], wave, hl, os => ⟨os, by rw [Tree.writeList]⟩
  | t :: ts, wave, hl, os => by
    rw [LoadedList] at hl
    obtain ⟨os1, e1⟩ := tree_saved hlen t wave hl.1 os
    obtain ⟨os2, e2⟩ := list_saved hlen ts wave hl.2 os1
    rw [Tree.writeList, e1]
    dsimp only
    rw [e2]
    exact ⟨os2, rfl⟩
end

end Lossless
end Mp4
