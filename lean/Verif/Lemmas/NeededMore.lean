import Verif.Lemmas.NeededStr

/-! # How many bytes `esds` and the alternative startup entries of `sgpd` need -/

namespace Mp4
open R
variable {α β : Type}

/-! ### the value of a length field -/

theorem uvarintGo_val (d : List Byte) (w : Nat) : ∀ (m : Nat) (o : Nat) (v : BitVec w) (r : Nat) (e : List Byte) (n : Nat)
    (a : BitVec w) (s : List Bool), (readUvarintGo w m v r).run e ((bytesBits d).drop (8 * o)) = .ok ((n, a), s) →
    a.toNat = (((d.drop o).take (Spec.varLen (d.drop o))).foldl (fun a b => a * 128 + b.toNat % 128) v.toNat) % 2 ^ w := by
  intro m
  induction m with
  | zero => intro o v r e n a s h; cases h
  | succ m ih =>
    intro o v r e n a s h
    rw [readUvarintGo] at h
    simp only [bind_eq, pure_eq] at h
    by_cases ho : o < d.length
    · rw [byte_step d o ho] at h
      have hf : ∀ (l : List Byte) (x y : Nat), x % 2 ^ w = y % 2 ^ w →
          (l.foldl (fun a b => a * 128 + b.toNat % 128) x) % 2 ^ w = (l.foldl (fun a b => a * 128 + b.toNat % 128) y) % 2 ^ w := by
        intro l
        induction l with
        | nil => exact fun x y h => h
        | cons b l ihl =>
          intro x y h
          refine ihl _ _ ?_
          rw [Nat.add_mod, Nat.mul_mod, h, ← Nat.mul_mod, ← Nat.add_mod]
      have hv : ((v <<< 7) + (d[o] &&& 0x7f#8).setWidth w).toNat % 2 ^ w = (v.toNat * 128 + d[o].toNat % 128) % 2 ^ w := by
        have h7 : (d[o] &&& 0x7f#8).toNat = d[o].toNat % 128 := by
          rw [BitVec.toNat_and]; exact Nat.and_two_pow_sub_one_eq_mod _ 7
        rw [BitVec.toNat_add, BitVec.toNat_shiftLeft, BitVec.toNat_setWidth, h7, Nat.shiftLeft_eq]
        simp
      rw [List.drop_eq_getElem_cons ho]
      by_cases h0 : 128 ≤ d[o].toNat
      · simp only [List.getD_cons_zero, and_msb, h0, not_true_eq_false, if_false] at h
        rw [varLen_cons h0, Nat.add_comm 1, List.take_succ_cons, List.foldl_cons, ih _ _ _ _ _ _ _ h]
        exact hf _ _ _ hv
      · simp only [List.getD_cons_zero, and_msb, h0, not_false_eq_true, if_true] at h
        rw [varLen_cons_small h0, List.take_succ_cons, List.take_zero, List.foldl_cons, List.foldl_nil, ← hv]
        have := congrArg (fun x : Except Err ((Nat × BitVec w) × List Bool) => match x with | .ok y => y.1.2.toNat | .error _ => 0) h
        dsimp only [R.run] at this
        rw [← this, Nat.mod_eq_of_lt (BitVec.isLt _)]
    · rw [byte_eof d o (by omega)] at h
      cases h

theorem uvarint_val (d : List Byte) (o : Nat) {e : List Byte} {n : Nat} {a : BitVec 32} {s : List Bool}
    (h : (read_uvarint 32).run e ((bytesBits d).drop (8 * o)) = .ok ((n, a), s)) : a.toNat = Spec.varVal (d.drop o) := by
  rw [read_uvarint] at h
  exact uvarintGo_val d 32 _ o _ _ _ _ _ _ h

/-! ### descriptors -/

theorem readInfo_takes (d : List Byte) (mk : List Byte → Descriptor) (o : Nat) :
    TakesAt (bytesBits d) (8 * o) (readInfo mk) (8 * (o + Spec.varLen (d.drop o) + Spec.varVal (d.drop o))) := by
  rw [readInfo]
  simp only [bind_eq, pure_eq]
  refine TakesAt.bind (uvarint_takes d 32 o) (by omega) fun h _ _ a hr => ?_
  dsimp only
  rw [uvarint_val d o hr]
  refine TakesAt.bind ((takes_vector 8 _ (by decide) h).congr (by omega)) (Nat.le_refl _) fun h _ _ _ _ => ?_
  exact TakesAt.ret rfl h

theorem DecConfigFields.takes (d : List Byte) (o : Nat) :
    TakesAt (bytesBits d) (8 * o) DecConfigFields.readData (8 * (o + Spec.varLen (d.drop o) + 13)) := by
  rw [DecConfigFields.readData]
  simp only [bind_eq, pure_eq]
  refine TakesAt.bind (uvarint_takes d 32 o) (by omega) fun h _ _ a hr => ?_
  takes_fields
  exact TakesAt.ret (by omega) (by omega)

theorem bool_val {S : List Bool} {o : Nat} {d : List Byte} {n : Nat} {a : Bool} {s' : List Bool}
    (h : read_bool.run d (S.drop o) = .ok ((n, a), s')) : a = decide (fieldAt S o 1 = 1) := by
  obtain ⟨h1, -⟩ := reads_bool d _ n a s' h
  rw [fieldAt, h1]
  cases a <;> rfl

theorem ESFields.takes (g : ESJunk) (d : List Byte) (o : Nat) :
    TakesAt (bytesBits d) (8 * o) (ESFields.readData g) (8 * (
      let b := o + Spec.varLen (d.drop o)
      let flags := Spec.numAt d (b + 2) 1
      let p := b + 3 + if flags / 128 % 2 = 1 then 2 else 0
      let q := p + if flags / 64 % 2 = 1 then 1 + Spec.numAt d p 1 else 0
      q + if flags / 32 % 2 = 1 then 2 else 0)) := by
  rw [ESFields.readData]
  simp only [bind_eq, pure_eq]
  generalize hb : o + Spec.varLen (d.drop o) = b
  refine TakesAt.bind ((uvarint_takes d 32 o).congr (by rw [hb])) (by omega) fun _ _ _ size _ => ?_
  refine TakesAt.bind (takes_uint _ _ (by decide)) (by omega) fun _ _ _ _ _ => ?_
  refine TakesAt.bind takes_bool (by omega) fun _ _ _ f1 h1 => ?_
  refine TakesAt.bind takes_bool (by omega) fun _ _ _ f2 h2 => ?_
  refine TakesAt.bind takes_bool (by omega) fun _ _ _ f3 h3 => ?_
  refine TakesAt.bind (takes_int _ _ (by decide)) (by omega) fun h24 _ _ _ _ => ?_
  have e1 := bool_val h1
  have e2 := bool_val h2
  have e3 := bool_val h3
  have hlen := bytesBits_length d
  have k1 := fieldAt_add (bytesBits d) (8 * (b + 2)) 1 7 (by omega)
  have k2 := fieldAt_add (bytesBits d) (8 * (b + 2) + 1) 1 6 (by omega)
  have k3 := fieldAt_add (bytesBits d) (8 * (b + 2) + 1 + 1) 1 5 (by omega)
  have l1 := fieldAt_lt (bytesBits d) (8 * (b + 2)) 1
  have l2 := fieldAt_lt (bytesBits d) (8 * (b + 2) + 1) 1
  have l3 := fieldAt_lt (bytesBits d) (8 * (b + 2) + 1 + 1) 1
  have l4 := fieldAt_lt (bytesBits d) (8 * (b + 2) + 1 + 1 + 1) 5
  have kb := fieldAt_bytes d (b + 2) 1
  simp only [Nat.reduceAdd, Nat.reducePow, Nat.reduceMul] at k1 k2 k3 l1 l2 l3 l4 kb
  rw [show 8 * b + 16 = 8 * (b + 2) by omega] at e1 e2 e3 h24 ⊢
  have g1 : (Spec.numAt d (b + 2) 1 / 128 % 2 = 1) = (f1 = true) := by rw [e1, ← kb, decide_eq_true_eq]; apply propext; omega
  have g2 : (Spec.numAt d (b + 2) 1 / 64 % 2 = 1) = (f2 = true) := by rw [e2, ← kb, decide_eq_true_eq]; apply propext; omega
  have g3 : (Spec.numAt d (b + 2) 1 / 32 % 2 = 1) = (f3 = true) := by rw [e3, ← kb, decide_eq_true_eq]; apply propext; omega
  simp only [g1, g2, g3]
  clear e1 e2 e3 k1 k2 k3 l1 l2 l3 l4 kb g1 g2 g3 h1 h2 h3
  rw [show 8 * (b + 2) + 1 + 1 + 1 + 5 = 8 * (b + 3) by omega] at h24 ⊢
  generalize hp : b + 3 + (if f1 = true then 2 else 0) = p
  refine TakesAt.bind ((takes_opt (k := 2) _ _ (takes_uint _ _ (by decide)) h24).congr (M := 8 * p) (by omega)) (by omega)
    fun h _ _ _ _ => ?_
  generalize hq : p + (if f2 = true then 1 + Spec.numAt d p 1 else 0) = q
  have hurl : TakesAt (bytesBits d) (8 * p) ((read_uint 8).bind fun x => (read_vector_uint 8 x.2.toNat).bind fun y =>
      R.ret (x.1 + y.1, y.2)) (8 * p + 8 * (1 + Spec.numAt d p 1)) := by
    refine TakesAt.bind (takes_uint _ _ (by decide)) (by omega) fun h _ _ v hv => ?_
    have hv := uint_val hv
    have := fieldAt_bytes d p 1
    simp only [Nat.mul_one] at this
    dsimp only
    rw [hv, ← this]
    refine TakesAt.bind ((takes_vector 8 _ (by decide) h).congr (by omega)) (Nat.le_refl _) fun h _ _ _ _ => ?_
    exact TakesAt.ret rfl h
  refine TakesAt.bind ((takes_opt _ _ hurl h).congr (M := 8 * q) (by omega)) (by omega) fun h _ _ _ _ => ?_
  refine TakesAt.bind ((takes_opt (k := 2) _ _ (takes_uint _ _ (by decide)) h).congr
    (M := 8 * (q + if f3 = true then 2 else 0)) (by omega)) (Nat.le_refl _) fun h _ _ _ _ => ?_
  exact TakesAt.ret rfl h

theorem numAt_one (d : List Byte) (o : Nat) (h : o < d.length) : Spec.numAt d o 1 = d[o].toNat := by
  rw [Spec.numAt, List.drop_eq_getElem_cons h]
  simp only [List.take_succ_cons, List.take_zero, List.foldl_cons, List.foldl_nil]
  omega

theorem descEnd_gt {d : List Byte} {o e : Nat} (h : Spec.descEnd d o = some e) : o < e := by
  unfold Spec.descEnd at h
  dsimp only at h
  split at h
  · injection h with h; omega
  · split at h
    · injection h with h; omega
    · split at h
      · injection h with h; omega
      · cases h

theorem descsEnd_ge (d : List Byte) (m : Nat) : ∀ o, o ≤ Spec.descsEnd d m o := by
  induction m with
  | zero => exact fun o => Nat.le_refl _
  | succ m ih =>
    intro o
    rw [Spec.descsEnd]
    split
    · exact Nat.le_refl _
    · split
      · next e he => exact Nat.le_trans (Nat.le_of_lt (descEnd_gt he)) (ih e)
      · omega

theorem readGo_takes (g : ESJunk) (fb : FullBox) (d : List Byte) : ∀ (k m o r : Nat) (acc : List Descriptor),
    d.length - o ≤ m → d.length - o < k → o ≤ d.length →
    TakesAt (bytesBits d) (8 * o) (Esds.readGo g fb k r acc) (8 * Spec.descsEnd d m o) := by
  intro k
  have hlen := bytesBits_length d
  induction k with
  | zero => intro m o r acc _ h; omega
  | succ k ih =>
    intro m o r acc hm hk ho
    rw [Esds.readGo]
    simp only [bind_eq, pure_eq]
    refine TakesAt.toEnd ?_
    by_cases h0 : d.length ≤ o
    · have : Spec.descsEnd d m o = o := by
        cases m with
        | zero => rfl
        | succ m => rw [Spec.descsEnd, if_pos h0]
      rw [this, if_pos (by omega)]
      exact TakesAt.ret rfl (by omega)
    obtain ⟨m, rfl⟩ : ∃ m', m = m' + 1 := ⟨m - 1, by omega⟩
    rw [Spec.descsEnd, if_neg h0, if_neg (by omega)]
    have hgo : ∀ (p : R (Nat × Descriptor)) (e : Nat) (r : Nat), o + 1 < e → TakesAt (bytesBits d) (8 * (o + 1)) p (8 * e) →
        TakesAt (bytesBits d) (8 * (o + 1)) (p.bind fun x => Esds.readGo g fb k (r + x.1) (acc ++ [x.2]))
          (8 * Spec.descsEnd d m e) := by
      intro p e r he hp
      have := descsEnd_ge d m e
      refine TakesAt.bind hp (by omega) fun h _ _ _ _ => ?_
      exact ih m e _ _ (by omega) (by omega) (by omega)
    have htag := numAt_one d o (by omega)
    have hv1 : 0 < Spec.varLen (d.drop (o + 1)) := Nat.succ_pos _
    have hN : 8 * o + 8 ≤ 8 * (match Spec.descEnd d o with | some e => Spec.descsEnd d m e | none => o + 1) := by
      cases he : Spec.descEnd d o with
      | none => show 8 * o + 8 ≤ 8 * (o + 1); omega
      | some e =>
        have h1 := descsEnd_ge d m e
        have h2 := descEnd_gt he
        show 8 * o + 8 ≤ 8 * Spec.descsEnd d m e
        omega
    refine TakesAt.bind (takes_int _ _ (by decide)) hN fun _ _ _ tag ht => ?_
    have htv : tag.toNat = Spec.numAt d o 1 := by
      have h1 := (reads_int 8 (by decide) (by decide) _ _ _ _ _ ht).1
      have h2 := fieldAt_bytes d o 1
      rw [fieldAt, h1, List.take_left' (by simp), ofBits_bits] at h2
      exact h2
    have htag : ∀ c : BitVec 8, tag = c ↔ Spec.numAt d o 1 = c.toNat := fun c => by rw [← htv, BitVec.toNat_inj]
    simp only [htag, BitVec.reduceToNat]
    dsimp only [Spec.descEnd]
    by_cases c3 : Spec.numAt d o 1 = 3
    · rw [if_pos c3, if_pos c3]
      exact hgo _ _ _ (by omega) (ESFields.takes g d (o + 1))
    rw [if_neg c3, if_neg c3]
    by_cases c4 : Spec.numAt d o 1 = 4
    · rw [if_pos c4, if_pos c4]
      exact hgo _ _ _ (by omega) (DecConfigFields.takes d (o + 1))
    rw [if_neg c4, if_neg c4]
    by_cases c5 : Spec.numAt d o 1 = 5
    · rw [if_pos c5, if_pos (.inl c5)]
      exact hgo _ _ _ (by omega) (readInfo_takes d _ (o + 1))
    rw [if_neg c5]
    by_cases c6 : Spec.numAt d o 1 = 6
    · rw [if_pos c6, if_pos (.inr c6)]
      exact hgo _ _ _ (by omega) (readInfo_takes d _ (o + 1))
    rw [if_neg c6, if_neg (by omega)]
    show TakesAt _ _ _ (8 * (o + 1))
    exact TakesAt.ret (by omega) (by omega)

theorem Esds.takes (g : ESJunk) (d : List Byte) :
    TakesAt (bytesBits d) 0 (Esds.readData g) (8 * Spec.descsEnd d d.length 4) := by
  have hlen := bytesBits_length d
  rw [Esds.readData]
  simp only [bind_eq, pure_eq]
  have hge := descsEnd_ge d d.length 4
  refine TakesAt.bind takes_fullBox (by omega) fun _ _ _ _ _ => ?_
  refine TakesAt.toEnd ?_
  exact readGo_takes g _ d _ _ 4 _ _ (by omega) (by omega) (by omega)

end Mp4
