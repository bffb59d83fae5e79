import Verif.Spec.Needed
import Verif.Lemmas.ReadsBox
import Verif.Props.Basics

/-! # How many bits a read needs -/

namespace Mp4
open R
variable {α β : Type}

/-- `p`, started at bit `o` of `S`, needs `S` to have `N` bits, and then stops at bit `N`. -/
def TakesAt (S : List Bool) (o : Nat) (p : R (Nat × α)) (N : Nat) : Prop :=
  ∀ d, (N ≤ S.length → ∃ n a, p.run d (S.drop o) = .ok ((n, a), S.drop N)) ∧ (S.length < N → p.run d (S.drop o) = .error .eof)

/-- The number in the `n` bits at bit `o`. -/
def fieldAt (S : List Bool) (o n : Nat) : Nat := ofBits ((S.drop o).take n)

theorem TakesAt.ret {S : List Bool} {o N : Nat} {n : Nat} {a : α} (h : o = N) (hN : N ≤ S.length) :
    TakesAt S o (.ret (n, a)) N := by
  subst h
  exact fun d => ⟨fun _ => ⟨n, a, rfl⟩, fun h => by omega⟩

/-- `g` may rely on the bits before it being there. -/
theorem TakesAt.bind {S : List Bool} {o M N : Nat} {p : R (Nat × α)} {g : Nat × α → R (Nat × β)} (hp : TakesAt S o p M)
    (hMN : M ≤ N) (hg : M ≤ S.length → ∀ d n a, p.run d (S.drop o) = .ok ((n, a), S.drop M) → TakesAt S M (g (n, a)) N) :
    TakesAt S o (p.bind g) N := by
  intro d
  rw [run_bind]
  by_cases hM : M ≤ S.length
  · obtain ⟨n, a, hr⟩ := (hp d).1 hM
    rw [hr]
    exact hg hM d n a hr d
  · rw [(hp d).2 (by omega)]
    exact ⟨fun h => by omega, fun _ => rfl⟩

theorem TakesAt.map {S : List Bool} {o N : Nat} {p : R (Nat × α)} (f : Nat × α → Nat × β) (hp : TakesAt S o p N) :
    TakesAt S o (p.bind fun x => .ret (f x)) N :=
  TakesAt.bind hp (Nat.le_refl _) fun h _ _ _ _ => TakesAt.ret rfl h

theorem TakesAt.congr {S : List Bool} {o N M : Nat} {p : R (Nat × α)} (hp : TakesAt S o p N) (h : N = M) : TakesAt S o p M := h ▸ hp

/-! ### fields -/

theorem readBits_takes (S : List Bool) (o k : Nat) (d : List Byte) (f : List Byte → R β) :
    (o + k ≤ S.length → ((R.readBits k).bind f).run d (S.drop o) = (f (packBits ((S.drop o).take k))).run d (S.drop (o + k))) ∧
    (S.length < o + k → 0 < k → ((R.readBits k).bind f).run d (S.drop o) = .error .eof) := by
  refine ⟨fun h => ?_, fun h h0 => run_readBits_eof f k d _ (by simp; omega)⟩
  have : S.drop o = (S.drop o).take k ++ S.drop (o + k) := by
    rw [← List.drop_drop, List.take_append_drop]
  conv => lhs; rw [this]
  exact run_readBits f k d _ _ (by simp; omega)

theorem takes_uint {S : List Bool} {o : Nat} (w k : Nat) (h0 : 0 < k) : TakesAt S o (read_uint w k) (o + k) := by
  intro d
  have hu : ∀ s, (read_uint w k).run d s
      = ((R.readBits k).bind fun data => .ret (k, (accumulate 0 data).setWidth w)).run d s := by
    intro s; rw [read_uint, if_neg (by omega)]; rfl
  rw [hu]
  obtain ⟨h1, h2⟩ := readBits_takes S o k d fun data => (.ret (k, (accumulate 0 data).setWidth w) : R (Nat × BitVec w))
  exact ⟨fun h => ⟨_, _, h1 h⟩, fun h => h2 h h0⟩

theorem takes_int {S : List Bool} {o : Nat} (w k : Nat) (h0 : 0 < k) : TakesAt S o (read_int w k) (o + k) := by
  intro d
  rw [read_int, if_neg (by omega)]
  simp only [bind_eq, pure_eq]
  constructor
  · intro h
    rw [(readBits_takes S o k d _).1 h]
    split
    · exact ⟨_, _, rfl⟩
    · split <;> exact ⟨_, _, rfl⟩
  · intro h
    exact (readBits_takes S o k d _).2 h h0

theorem takes_bool {S : List Bool} {o : Nat} : TakesAt S o read_bool (o + 1) := by
  intro d
  have hu : ∀ s, read_bool.run d s = ((R.readBits 1).bind fun v => .ret (1, v.getD 0 0 != 0)).run d s := fun _ => rfl
  rw [hu]
  obtain ⟨h1, h2⟩ := readBits_takes S o 1 d fun v => (.ret (1, v.getD 0 0 != 0) : R (Nat × Bool))
  exact ⟨fun h => ⟨_, _, h1 h⟩, fun h => h2 h (by decide)⟩

theorem takes_code4 {S : List Bool} {o : Nat} : TakesAt S o read_array_uint8_4 (o + 32) := by
  intro d
  have key : TakesAt S o read_array_uint8_4 (o + 32) := by
    rw [read_array_uint8_4]
    simp only [bind_eq, pure_eq]
    refine TakesAt.bind (takes_uint 8 8 (by decide)) (by omega) fun _ _ _ _ _ => ?_
    refine TakesAt.bind (takes_uint 8 8 (by decide)) (by omega) fun _ _ _ _ _ => ?_
    refine TakesAt.bind (takes_uint 8 8 (by decide)) (by omega) fun _ _ _ _ _ => ?_
    refine TakesAt.bind (takes_uint 8 8 (by decide)) (by omega) fun _ _ _ _ _ => ?_
    exact TakesAt.ret (by omega) (by omega)
  exact key d

theorem takes_fullBox {S : List Bool} {o : Nat} : TakesAt S o FullBox.readVersionAndFlag (o + 32) := by
  rw [FullBox.readVersionAndFlag]
  simp only [bind_eq, pure_eq]
  refine TakesAt.bind (takes_uint 8 8 (by decide)) (by omega) fun _ _ _ _ _ => ?_
  refine TakesAt.bind (takes_uint 8 8 (by decide)) (by omega) fun _ _ _ _ _ => ?_
  refine TakesAt.bind (takes_uint 8 8 (by decide)) (by omega) fun _ _ _ _ _ => ?_
  refine TakesAt.bind (takes_uint 8 8 (by decide)) (by omega) fun _ _ _ _ _ => ?_
  exact TakesAt.ret (by omega) (by omega)

/-- Entries of one size. -/
theorem takes_readN {S : List Bool} {p : R (Nat × α)} {k : Nat} (hp : ∀ o, TakesAt S o p (o + k)) (c : Nat) :
    ∀ o, o ≤ S.length → TakesAt S o (readN p c) (o + c * k) := by
  induction c with
  | zero => intro o ho; exact TakesAt.ret (by simp) (by simpa using ho)
  | succ c ih =>
    intro o ho
    rw [readN]
    simp only [bind_eq, pure_eq]
    have e : o + (c + 1) * k = o + k + c * k := by rw [Nat.succ_mul]; omega
    rw [e]
    refine TakesAt.bind (hp o) (by omega) fun h _ _ _ _ => ?_
    refine TakesAt.bind (ih (o + k) h) (by omega) fun h2 _ _ _ _ => ?_
    exact TakesAt.ret rfl h2

/-- The same where an entry may be empty. -/
theorem takes_readN' {S : List Bool} {p : R (Nat × α)} {k : Nat} (hp : ∀ o, o ≤ S.length → TakesAt S o p (o + k)) (c : Nat) :
    ∀ o, o ≤ S.length → TakesAt S o (readN p c) (o + c * k) := by
  induction c with
  | zero => intro o ho; exact TakesAt.ret (by simp) (by simpa using ho)
  | succ c ih =>
    intro o ho
    rw [readN]
    simp only [bind_eq, pure_eq]
    have e : o + (c + 1) * k = o + k + c * k := by rw [Nat.succ_mul]; omega
    rw [e]
    refine TakesAt.bind (hp o ho) (by omega) fun h _ _ _ _ => ?_
    refine TakesAt.bind (ih (o + k) h) (by omega) fun h2 _ _ _ _ => ?_
    exact TakesAt.ret rfl h2

theorem takes_vector {S : List Bool} {o : Nat} (w c : Nat) (h0 : 0 < w) (ho : o ≤ S.length) :
    TakesAt S o (read_vector_uint w c) (o + c * w) :=
  takes_readN (fun _ => takes_uint w w h0) c o ho

theorem takes_arr {S : List Bool} {o : Nat} (w n : Nat) (h0 : 0 < w) (ho : o ≤ S.length) :
    TakesAt S o (read_arr w n) (o + n * w) :=
  TakesAt.map (p := readN (read_uint w) n) (fun x => (x.1, Vector.ofFn fun i : Fin n => x.2.getD i 0))
    (takes_readN (fun _ => takes_uint w w h0) n o ho)

theorem takes_arr_int {S : List Bool} {o : Nat} (w n : Nat) (h0 : 0 < w) (ho : o ≤ S.length) :
    TakesAt S o (read_arr_int w n) (o + n * w) :=
  TakesAt.map (p := readN (read_int w) n) (fun x => (x.1, Vector.ofFn fun i : Fin n => x.2.getD i 0))
    (takes_readN (fun _ => takes_int w w h0) n o ho)

theorem takes_opt {S : List Bool} {o k : Nat} {p : R (Nat × α)} (c : Bool) (old : α) (hp : TakesAt S o p (o + 8 * k))
    (ho : o ≤ S.length) : TakesAt S o (R.opt c p old) (o + 8 * if c then k else 0) := by
  cases c
  · exact TakesAt.ret (by simp) (by simpa using ho)
  · exact hp

theorem TakesAt.toEnd {S : List Bool} {o N : Nat} {g : Nat → R (Nat × β)} (hg : TakesAt S o (g ((S.length - o) / 8)) N) :
    TakesAt S o (offsetToEnd.bind g) N := by
  intro d
  have := hg d
  rw [show (offsetToEnd.bind g).run d (S.drop o) = (g ((S.drop o).length / 8)).run d (S.drop o) from rfl, List.length_drop]
  exact this

/-! ### values -/

theorem uint_val {S : List Bool} {o w k : Nat} {d : List Byte} {n : Nat} {a : BitVec w} {s' : List Bool}
    (h : (read_uint w k).run d (S.drop o) = .ok ((n, a), s')) (hk : k ≤ w := by decide) (hw : w ≤ 64 := by decide) :
    a.toNat = fieldAt S o k := by
  obtain ⟨h1, h2⟩ := reads_ubits w k hk hw d _ n a s' h
  rw [fieldAt, h1, List.take_left' (by simp [ubits]), ubits, ofBits_natBits, Nat.mod_eq_of_lt h2]

theorem fieldAt_lt (S : List Bool) (o n : Nat) : fieldAt S o n < 2 ^ n :=
  Nat.lt_of_lt_of_le (ofBits_lt _) (Nat.pow_le_pow_right (by decide) (by simp; omega))

theorem fieldAt_add (S : List Bool) (o a b : Nat) (h : o + a + b ≤ S.length) :
    fieldAt S o (a + b) = fieldAt S o a * 2 ^ b + fieldAt S (o + a) b := by
  rw [fieldAt, fieldAt, fieldAt, List.take_add, ofBits_append, List.drop_drop]
  congr 3
  simp
  omega

theorem fieldAt_bytes (d : List Byte) (o n : Nat) : fieldAt (bytesBits d) (8 * o) (8 * n) = Spec.numAt d o n := by
  rw [fieldAt, ← bytesBits_drop, ← bytesBits_take, Spec.numAt]
  have : ∀ (l : List Byte) (a : Nat), l.foldl (fun a b => a * 256 + b.toNat) a = a * 2 ^ (bytesBits l).length + ofBits (bytesBits l) := by
    intro l
    induction l with
    | nil => intro a; simp
    | cons b l ih =>
      intro a
      rw [List.foldl_cons, ih, bytesBits_cons, ofBits_append, ofBits_bits, List.length_append, bits_length, Nat.pow_add,
        Nat.add_mul, Nat.mul_assoc, Nat.add_assoc]
  rw [this]
  simp

/-- The version and the flags. -/
theorem fullBox_val {S : List Bool} {d : List Byte} {n : Nat} {fb : FullBox} {s' : List Bool}
    (h : FullBox.readVersionAndFlag.run d (S.drop 0) = .ok ((n, fb), s')) :
    fb.version.toNat = fieldAt S 0 8 ∧ fb.getFlags.toNat = fieldAt S 8 24 := by
  obtain ⟨h1, -⟩ := reads_fullBox d _ n fb s' h
  rw [List.drop_zero] at h1
  subst h1
  obtain ⟨v, f0, f1, f2⟩ := fb
  constructor
  · simp [fieldAt, fbits, List.take_append]
  · rw [getFlags_toNat]
    have h0 : (bits f0).take 24 = bits f0 := List.take_of_length_le (by simp)
    have h1 : (bits f1).take 16 = bits f1 := List.take_of_length_le (by simp)
    simp [h0, h1, fieldAt, fbits, List.take_append, ofBits_append, List.drop_append]
    omega

theorem fullBox_version {S : List Bool} {d : List Byte} {n : Nat} {fb : FullBox} {s' : List Bool}
    (h : FullBox.readVersionAndFlag.run d (S.drop 0) = .ok ((n, fb), s')) : fb.version = 0#8 ↔ fieldAt S 0 8 = 0 := by
  rw [← (fullBox_val h).1]
  exact ⟨fun h => by rw [h]; rfl, fun h => BitVec.eq_of_toNat_eq h⟩

theorem fullBox_vw {S : List Bool} {d : List Byte} {n : Nat} {fb : FullBox} {s' : List Bool}
    (h : FullBox.readVersionAndFlag.run d (S.drop 0) = .ok ((n, fb), s')) : vw fb = if fieldAt S 0 8 = 0 then 32 else 64 := by
  have := fullBox_version h
  unfold vw
  simp only [this]

/-- A bit of `m` is set in the flags. -/
def flagAt (S : List Bool) (m : Nat) : Bool := fieldAt S 8 24 &&& m != 0

theorem fullBox_flag {S : List Bool} {d : List Byte} {n : Nat} {fb : FullBox} {s' : List Bool}
    (h : FullBox.readVersionAndFlag.run d (S.drop 0) = .ok ((n, fb), s')) (m : BitVec 32) :
    fb.checkFlag m = flagAt S m.toNat := by
  rw [flagAt, ← (fullBox_val h).2, FullBox.checkFlag, ← BitVec.toNat_and]
  rw [Bool.eq_iff_iff, bne_iff_ne, bne_iff_ne, ne_eq, ne_eq, ← BitVec.toNat_inj]
  rfl

/-! ### the classes -/

/-- One field. -/
syntax "takes_field" : tactic
macro_rules
  | `(tactic| takes_field) => `(tactic| with_reducible first
      | exact takes_fullBox
      | exact takes_code4
      | exact takes_bool
      | exact takes_uint _ _ (by decide)
      | exact takes_int _ _ (by decide)
      | exact takes_arr _ _ (by decide) (by omega)
      | exact takes_arr_int _ _ (by decide) (by omega))

/-- A sequence of fields. -/
syntax "takes_fields" : tactic
macro_rules
  | `(tactic| takes_fields) => `(tactic| (
      try simp only [R.bind_eq, R.pure_eq]
      repeat (with_reducible refine TakesAt.bind (by takes_field) (by omega) fun _ _ _ _ _ => ?_)))

variable {S : List Bool}

theorem Btrt.takes : TakesAt S 0 Btrt.readData 96 := by
  rw [Btrt.readData]; takes_fields; exact TakesAt.ret (by omega) (by omega)

theorem Pasp.takes : TakesAt S 0 Pasp.readData 64 := by
  rw [Pasp.readData]; takes_fields; exact TakesAt.ret (by omega) (by omega)

theorem Fiel.takes : TakesAt S 0 Fiel.readData 16 := by
  rw [Fiel.readData]; takes_fields; exact TakesAt.ret (by omega) (by omega)

theorem Smhd.takes : TakesAt S 0 Smhd.readData 64 := by
  rw [Smhd.readData]; takes_fields; exact TakesAt.ret (by omega) (by omega)

theorem Vmhd.takes : TakesAt S 0 Vmhd.readData 96 := by
  rw [Vmhd.readData]; takes_fields; exact TakesAt.ret (by omega) (by omega)

theorem Mfhd.takes : TakesAt S 0 Mfhd.readData 64 := by
  rw [Mfhd.readData]; takes_fields; exact TakesAt.ret (by omega) (by omega)

theorem Mfro.takes : TakesAt S 0 Mfro.readData 64 := by
  rw [Mfro.readData]; takes_fields; exact TakesAt.ret (by omega) (by omega)

theorem Dref.takes : TakesAt S 0 Dref.readData 64 := by
  rw [Dref.readData]; takes_fields; exact TakesAt.ret (by omega) (by omega)

theorem Stsd.takes : TakesAt S 0 Stsd.readData 64 := by
  rw [Stsd.readData]; takes_fields; exact TakesAt.ret (by omega) (by omega)

theorem Trex.takes : TakesAt S 0 Trex.readData 192 := by
  rw [Trex.readData]; takes_fields; exact TakesAt.ret (by omega) (by omega)

theorem Meta.takes : TakesAt S 0 Meta.readData 32 := by
  rw [Meta.readData]; takes_fields
  dsimp only
  split <;> exact TakesAt.ret (by omega) (by omega)

theorem takes_reservedAndIndex {o : Nat} (ho : o ≤ S.length) : TakesAt S o readReservedAndIndex (o + 64) := by
  rw [readReservedAndIndex]; takes_fields; exact TakesAt.ret (by omega) (by omega)

theorem VisualSampleEntry.takes (t : BoxType) : TakesAt S 0 (VisualSampleEntry.readData t) 624 := by
  rw [VisualSampleEntry.readData]
  simp only [R.bind_eq, R.pure_eq]
  refine TakesAt.bind (takes_reservedAndIndex (by omega)) (by omega) fun _ _ _ _ _ => ?_
  takes_fields; exact TakesAt.ret (by omega) (by omega)

theorem Mvhd.takes : TakesAt S 0 Mvhd.readData (8 * if fieldAt S 0 8 = 0 then 100 else 112) := by
  rw [Mvhd.readData]
  simp only [R.bind_eq, R.pure_eq]
  refine TakesAt.bind takes_fullBox (by split <;> omega) fun _ _ _ fb hr => ?_
  simp only [fullBox_vw hr]
  split <;> (takes_fields; exact TakesAt.ret (by omega) (by omega))

theorem Tkhd.takes : TakesAt S 0 Tkhd.readData (8 * if fieldAt S 0 8 = 0 then 84 else 96) := by
  rw [Tkhd.readData]
  simp only [R.bind_eq, R.pure_eq]
  refine TakesAt.bind takes_fullBox (by split <;> omega) fun _ _ _ fb hr => ?_
  simp only [fullBox_vw hr]
  split <;> (takes_fields; exact TakesAt.ret (by omega) (by omega))

theorem Mdhd.takes : TakesAt S 0 Mdhd.readData (8 * if fieldAt S 0 8 = 0 then 24 else 36) := by
  rw [Mdhd.readData]
  simp only [R.bind_eq, R.pure_eq]
  refine TakesAt.bind takes_fullBox (by split <;> omega) fun _ _ _ fb hr => ?_
  simp only [fullBox_vw hr]
  split <;> (takes_fields; exact TakesAt.ret (by omega) (by omega))

theorem Mehd.takes : TakesAt S 0 Mehd.readData (8 * if fieldAt S 0 8 = 0 then 8 else 12) := by
  rw [Mehd.readData]
  simp only [R.bind_eq, R.pure_eq]
  refine TakesAt.bind takes_fullBox (by split <;> omega) fun _ _ _ fb hr => ?_
  simp only [fullBox_vw hr]
  split <;> (takes_fields; exact TakesAt.ret (by omega) (by omega))

theorem Tfdt.takes : TakesAt S 0 Tfdt.readData (8 * if fieldAt S 0 8 = 0 then 8 else 12) := by
  rw [Tfdt.readData]
  simp only [R.bind_eq, R.pure_eq]
  refine TakesAt.bind takes_fullBox (by split <;> omega) fun _ _ _ fb hr => ?_
  simp only [fullBox_vw hr]
  split <;> (takes_fields; exact TakesAt.ret (by omega) (by omega))

/-! tables -/

theorem SttsEntry.takes {o : Nat} : TakesAt S o SttsEntry.readData (o + 64) := by
  rw [SttsEntry.readData]; takes_fields; exact TakesAt.ret (by omega) (by omega)

theorem CttsEntry.takes {o : Nat} : TakesAt S o CttsEntry.readData (o + 64) := by
  rw [CttsEntry.readData]; takes_fields; exact TakesAt.ret (by omega) (by omega)

theorem StscEntry.takes {o : Nat} : TakesAt S o StscEntry.readData (o + 96) := by
  rw [StscEntry.readData]; takes_fields; exact TakesAt.ret (by omega) (by omega)

theorem SbgpEntry.takes {o : Nat} : TakesAt S o SbgpEntry.readData (o + 64) := by
  rw [SbgpEntry.readData]; takes_fields; exact TakesAt.ret (by omega) (by omega)

theorem SdtpSample.takes {o : Nat} : TakesAt S o SdtpSample.readData (o + 8) := by
  rw [SdtpSample.readData]; takes_fields; exact TakesAt.ret (by omega) (by omega)

theorem SidxReference.takes {o : Nat} : TakesAt S o SidxReference.readData (o + 96) := by
  rw [SidxReference.readData]; takes_fields; exact TakesAt.ret (by omega) (by omega)

theorem Stts.takes : TakesAt S 0 Stts.readData (8 * (8 + 8 * fieldAt S 32 32)) := by
  rw [Stts.readData]
  simp only [R.bind_eq, R.pure_eq]
  refine TakesAt.bind takes_fullBox (by omega) fun _ _ _ fb _ => ?_
  refine TakesAt.bind (takes_uint _ _ (by decide)) (by omega) fun h _ _ c hc => ?_
  have hv := uint_val hc
  simp only [Nat.zero_add] at *
  refine TakesAt.bind (takes_readN (fun _ => SttsEntry.takes) c.toNat _ h) (by omega) fun _ _ _ _ _ => ?_
  exact TakesAt.ret (by omega) (by omega)

theorem Ctts.takes : TakesAt S 0 Ctts.readData (8 * (8 + 8 * fieldAt S 32 32)) := by
  rw [Ctts.readData]
  simp only [R.bind_eq, R.pure_eq]
  refine TakesAt.bind takes_fullBox (by omega) fun _ _ _ fb _ => ?_
  refine TakesAt.bind (takes_uint _ _ (by decide)) (by omega) fun h _ _ c hc => ?_
  have hv := uint_val hc
  simp only [Nat.zero_add] at *
  refine TakesAt.bind (takes_readN (fun _ => CttsEntry.takes) c.toNat _ h) (by omega) fun _ _ _ _ _ => ?_
  exact TakesAt.ret (by omega) (by omega)

theorem Stsc.takes : TakesAt S 0 Stsc.readData (8 * (8 + 12 * fieldAt S 32 32)) := by
  rw [Stsc.readData]
  simp only [R.bind_eq, R.pure_eq]
  refine TakesAt.bind takes_fullBox (by omega) fun _ _ _ fb _ => ?_
  refine TakesAt.bind (takes_uint _ _ (by decide)) (by omega) fun h _ _ c hc => ?_
  have hv := uint_val hc
  simp only [Nat.zero_add] at *
  refine TakesAt.bind (takes_readN (fun _ => StscEntry.takes) c.toNat _ h) (by omega) fun _ _ _ _ _ => ?_
  exact TakesAt.ret (by omega) (by omega)

theorem Stco.takes : TakesAt S 0 Stco.readData (8 * (8 + 4 * fieldAt S 32 32)) := by
  rw [Stco.readData]
  simp only [R.bind_eq, R.pure_eq]
  refine TakesAt.bind takes_fullBox (by omega) fun _ _ _ fb _ => ?_
  refine TakesAt.bind (takes_uint _ _ (by decide)) (by omega) fun h _ _ c hc => ?_
  have hv := uint_val hc
  simp only [Nat.zero_add] at *
  refine TakesAt.bind (takes_vector 32 c.toNat (by decide) h) (by omega) fun _ _ _ _ _ => ?_
  exact TakesAt.ret (by omega) (by omega)

theorem Stss.takes : TakesAt S 0 Stss.readData (8 * (8 + 4 * fieldAt S 32 32)) := by
  rw [Stss.readData]
  simp only [R.bind_eq, R.pure_eq]
  refine TakesAt.bind takes_fullBox (by omega) fun _ _ _ fb _ => ?_
  refine TakesAt.bind (takes_uint _ _ (by decide)) (by omega) fun h _ _ c hc => ?_
  have hv := uint_val hc
  simp only [Nat.zero_add] at *
  refine TakesAt.bind (takes_vector 32 c.toNat (by decide) h) (by omega) fun _ _ _ _ _ => ?_
  exact TakesAt.ret (by omega) (by omega)

theorem Co64.takes : TakesAt S 0 Co64.readData (8 * (8 + 8 * fieldAt S 32 32)) := by
  rw [Co64.readData]
  simp only [R.bind_eq, R.pure_eq]
  refine TakesAt.bind takes_fullBox (by omega) fun _ _ _ fb _ => ?_
  refine TakesAt.bind (takes_uint _ _ (by decide)) (by omega) fun h _ _ c hc => ?_
  have hv := uint_val hc
  simp only [Nat.zero_add] at *
  refine TakesAt.bind (takes_vector 64 c.toNat (by decide) h) (by omega) fun _ _ _ _ _ => ?_
  exact TakesAt.ret (by omega) (by omega)

theorem Stsz.takes : TakesAt S 0 Stsz.readData (8 * if fieldAt S 32 32 = 0 then 12 + 4 * fieldAt S 64 32 else 12) := by
  rw [Stsz.readData]
  simp only [R.bind_eq, R.pure_eq]
  refine TakesAt.bind takes_fullBox (by split <;> omega) fun _ _ _ fb _ => ?_
  refine TakesAt.bind (takes_uint _ _ (by decide)) (by split <;> omega) fun _ _ _ z hz => ?_
  refine TakesAt.bind (takes_uint _ _ (by decide)) (by split <;> omega) fun h _ _ c hc => ?_
  have hv := uint_val hc
  have hz := uint_val hz
  simp only [Nat.zero_add, Nat.reduceAdd] at *
  have e : z = 0#32 ↔ fieldAt S 32 32 = 0 := by
    rw [← hz]; exact ⟨fun h => by rw [h]; rfl, fun h => BitVec.eq_of_toNat_eq h⟩
  simp only [e]
  split
  · refine TakesAt.bind (takes_vector 32 c.toNat (by decide) h) (by omega) fun _ _ _ _ _ => ?_
    exact TakesAt.ret (by omega) (by omega)
  · exact TakesAt.ret (by omega) (by omega)

theorem Elst.takes : TakesAt S 0 Elst.readData (8 * (8 + fieldAt S 32 32 * if fieldAt S 0 8 = 0 then 12 else 20)) := by
  rw [Elst.readData]
  simp only [R.bind_eq, R.pure_eq]
  refine TakesAt.bind takes_fullBox (by omega) fun _ _ _ fb hr => ?_
  simp only [fullBox_vw hr]
  refine TakesAt.bind (takes_uint _ _ (by decide)) (by omega) fun h _ _ c hc => ?_
  have hv := uint_val hc
  simp only [Nat.zero_add] at *
  split
  · have he : ∀ o, TakesAt S o (ElstEntry.readData 32) (o + 96) := by
      intro o; rw [ElstEntry.readData]; takes_fields; exact TakesAt.ret (by omega) (by omega)
    refine TakesAt.bind (takes_readN he c.toNat _ h) (by omega) fun _ _ _ _ _ => ?_
    exact TakesAt.ret (by omega) (by omega)
  · have he : ∀ o, TakesAt S o (ElstEntry.readData 64) (o + 160) := by
      intro o; rw [ElstEntry.readData]; takes_fields; exact TakesAt.ret (by omega) (by omega)
    refine TakesAt.bind (takes_readN he c.toNat _ h) (by omega) fun _ _ _ _ _ => ?_
    exact TakesAt.ret (by omega) (by omega)

theorem Sidx.takes : TakesAt S 0 Sidx.readData
    (8 * if fieldAt S 0 8 = 0 then 24 + 12 * fieldAt S 176 16 else 32 + 12 * fieldAt S 240 16) := by
  rw [Sidx.readData]
  simp only [R.bind_eq, R.pure_eq]
  refine TakesAt.bind takes_fullBox (by split <;> omega) fun _ _ _ fb hr => ?_
  simp only [fullBox_vw hr]
  split
  all_goals
    refine TakesAt.bind (takes_uint _ _ (by decide)) (by omega) fun _ _ _ _ _ => ?_
    refine TakesAt.bind (takes_uint _ _ (by decide)) (by omega) fun _ _ _ _ _ => ?_
    refine TakesAt.bind (takes_uint _ _ (by decide)) (by omega) fun _ _ _ _ _ => ?_
    refine TakesAt.bind (takes_uint _ _ (by decide)) (by omega) fun _ _ _ _ _ => ?_
    refine TakesAt.bind (takes_uint _ _ (by decide)) (by omega) fun _ _ _ _ _ => ?_
    refine TakesAt.bind (takes_uint _ _ (by decide)) (by omega) fun h _ _ c hc => ?_
    have hv := uint_val hc
    simp only [Nat.zero_add, Nat.reduceAdd] at *
    refine TakesAt.bind (takes_readN (fun _ => SidxReference.takes) c.toNat _ h) (by omega) fun _ _ _ _ _ => ?_
    exact TakesAt.ret (by omega) (by omega)

theorem Sbgp.takes (old : BitVec 32) : TakesAt S 0 (Sbgp.readData old)
    (8 * if fieldAt S 0 8 = 0 then 12 + 8 * fieldAt S 64 32 else 16 + 8 * fieldAt S 96 32) := by
  rw [Sbgp.readData]
  simp only [R.bind_eq, R.pure_eq]
  refine TakesAt.bind takes_fullBox (by split <;> omega) fun _ _ _ fb hr => ?_
  simp only [ne_eq, fullBox_version hr]
  refine TakesAt.bind takes_code4 (by split <;> omega) fun h0 _ _ _ _ => ?_
  by_cases h : fieldAt S 0 8 = 0
  · simp only [h, not_true_eq_false, decide_false, if_true]
    refine TakesAt.bind (takes_opt (k := 4) false old (takes_uint 32 32 (by decide)) h0) (by simp; omega) fun _ _ _ _ _ => ?_
    refine TakesAt.bind (takes_uint _ _ (by decide)) (by simp; omega) fun h _ _ c hc => ?_
    have hv := uint_val hc
    simp only [Nat.zero_add, Nat.reduceAdd, Bool.false_eq_true, if_false, Nat.add_zero, Nat.mul_zero, Nat.reduceMul] at *
    refine TakesAt.bind (takes_readN (fun _ => SbgpEntry.takes) c.toNat _ h) (by omega) fun _ _ _ _ _ => ?_
    exact TakesAt.ret (by omega) (by omega)
  · simp only [h, not_false_eq_true, decide_true, if_false]
    refine TakesAt.bind (takes_opt (k := 4) true old (takes_uint 32 32 (by decide)) h0) (by simp; omega) fun _ _ _ _ _ => ?_
    refine TakesAt.bind (takes_uint _ _ (by decide)) (by simp; omega) fun h _ _ c hc => ?_
    have hv := uint_val hc
    simp only [Nat.zero_add, Nat.reduceAdd, Nat.reduceMul, if_true] at *
    refine TakesAt.bind (takes_readN (fun _ => SbgpEntry.takes) c.toNat _ h) (by omega) fun _ _ _ _ _ => ?_
    exact TakesAt.ret (by omega) (by omega)

/-! flags -/

theorem Tfhd.takes (old : Tfhd) : TakesAt S 0 (Tfhd.readData old) (8 * (8 + (if flagAt S 0x1 then 8 else 0) +
    (if flagAt S 0x2 then 4 else 0) + (if flagAt S 0x8 then 4 else 0) + (if flagAt S 0x10 then 4 else 0) +
    (if flagAt S 0x20 then 4 else 0))) := by
  rw [Tfhd.readData]
  simp only [R.bind_eq, R.pure_eq]
  refine TakesAt.bind takes_fullBox (by omega) fun _ _ _ fb hr => ?_
  simp only [fullBox_flag hr, BitVec.reduceToNat]
  refine TakesAt.bind (takes_uint _ _ (by decide)) (by omega) fun h _ _ _ _ => ?_
  refine TakesAt.bind (takes_opt (k := 8) _ _ (takes_uint _ _ (by decide)) h) (by omega) fun h _ _ _ _ => ?_
  refine TakesAt.bind (takes_opt (k := 4) _ _ (takes_uint _ _ (by decide)) h) (by omega) fun h _ _ _ _ => ?_
  refine TakesAt.bind (takes_opt (k := 4) _ _ (takes_uint _ _ (by decide)) h)
    (by omega) fun h _ _ _ _ => ?_
  refine TakesAt.bind (takes_opt (k := 4) _ _ (takes_uint _ _ (by decide)) h)
    (by omega) fun h _ _ _ _ => ?_
  refine TakesAt.bind (takes_opt (k := 4) _ _ (takes_uint _ _ (by decide)) h)
    (by omega) fun h _ _ _ _ => ?_
  exact TakesAt.ret (by omega) (by omega)

theorem TrunEntry.takes (fb : FullBox) (o : Nat) (ho : o ≤ S.length) : TakesAt S o (TrunEntry.readData fb) (o + 8 *
    ((if fb.checkFlag 0x100#32 then 4 else 0) + (if fb.checkFlag 0x200#32 then 4 else 0) +
      (if fb.checkFlag 0x400#32 then 4 else 0) + (if fb.checkFlag 0x800#32 then 4 else 0))) := by
  rw [TrunEntry.readData]
  simp only [R.bind_eq, R.pure_eq]
  refine TakesAt.bind (takes_opt (k := 4) _ _ (takes_uint _ _ (by decide)) ho) (by omega) fun h _ _ _ _ => ?_
  refine TakesAt.bind (takes_opt (k := 4) _ _ (takes_uint _ _ (by decide)) h)
    (by omega) fun h _ _ _ _ => ?_
  refine TakesAt.bind (takes_opt (k := 4) _ _ (takes_uint _ _ (by decide)) h)
    (by omega) fun h _ _ _ _ => ?_
  refine TakesAt.bind (takes_opt (k := 4) _ _ (takes_int _ _ (by decide)) h)
    (by omega) fun h _ _ _ _ => ?_
  exact TakesAt.ret (by omega) (by omega)

theorem Trun.takes (old : Trun) : TakesAt S 0 (Trun.readData old) (8 * (8 + (if flagAt S 0x1 then 4 else 0) +
    (if flagAt S 0x4 then 4 else 0) + fieldAt S 32 32 * ((if flagAt S 0x100 then 4 else 0) + (if flagAt S 0x200 then 4 else 0) +
      (if flagAt S 0x400 then 4 else 0) + (if flagAt S 0x800 then 4 else 0)))) := by
  rw [Trun.readData]
  simp only [R.bind_eq, R.pure_eq]
  refine TakesAt.bind takes_fullBox (by omega) fun _ _ _ fb hr => ?_
  have hE := fun o (ho : o ≤ S.length) => TrunEntry.takes fb o ho
  simp only [fullBox_flag hr, BitVec.reduceToNat] at hE ⊢
  generalize ((if flagAt S 0x100 then 4 else 0) + (if flagAt S 0x200 then 4 else 0) +
      (if flagAt S 0x400 then 4 else 0) + (if flagAt S 0x800 then 4 else 0)) = K at hE ⊢
  refine TakesAt.bind (takes_uint _ _ (by decide)) (by omega) fun h _ _ c hc => ?_
  have hv := uint_val hc
  simp only [Nat.zero_add] at *
  rw [← hv]
  refine TakesAt.bind (takes_opt (k := 4) _ _ (takes_int _ _ (by decide)) h) (by omega) fun h _ _ _ _ => ?_
  refine TakesAt.bind (takes_opt (k := 4) _ _ (takes_uint _ _ (by decide)) h) (by omega) fun h _ _ _ _ => ?_
  have e : c.toNat * (8 * K) = 8 * (c.toNat * K) := Nat.mul_left_comm _ _ _
  refine TakesAt.bind (takes_readN' hE c.toNat _ h) (by omega) fun _ _ _ _ _ => ?_
  exact TakesAt.ret (by omega) (by omega)

theorem TfraEntry.takes (v l0 l1 l2 : Byte) (w o : Nat) (hw : 0 < w) : TakesAt S o (TfraEntry.readData w l0 l1 l2)
    (o + 2 * w + 8 * ((l0.toNat + 1) + (l1.toNat + 1) + (l2.toNat + 1))) := by
  rw [TfraEntry.readData]
  simp only [R.bind_eq, R.pure_eq]
  refine TakesAt.bind (takes_uint _ _ hw) (by omega) fun _ _ _ _ _ => ?_
  refine TakesAt.bind (takes_uint _ _ hw) (by omega) fun _ _ _ _ _ => ?_
  refine TakesAt.bind (takes_uint _ _ (by omega)) (by omega) fun _ _ _ _ _ => ?_
  refine TakesAt.bind (takes_uint _ _ (by omega)) (by omega) fun _ _ _ _ _ => ?_
  refine TakesAt.bind (takes_uint _ _ (by omega)) (by omega) fun _ _ _ _ _ => ?_
  exact TakesAt.ret (by omega) (by omega)

theorem Tfra.takes : TakesAt S 0 Tfra.readData (8 * (16 + fieldAt S 96 32 * ((if fieldAt S 0 8 = 0 then 8 else 16) +
    (fieldAt S 90 2 + 1) + (fieldAt S 92 2 + 1) + (fieldAt S 94 2 + 1)))) := by
  rw [Tfra.readData]
  simp only [R.bind_eq, R.pure_eq]
  refine TakesAt.bind takes_fullBox (by omega) fun _ _ _ fb hr => ?_
  refine TakesAt.bind (takes_uint _ _ (by decide)) (by omega) fun _ _ _ _ _ => ?_
  refine TakesAt.bind (takes_uint _ _ (by decide)) (by omega) fun _ _ _ _ _ => ?_
  refine TakesAt.bind (takes_uint _ _ (by decide)) (by omega) fun _ _ _ l0 h0 => ?_
  refine TakesAt.bind (takes_uint _ _ (by decide)) (by omega) fun _ _ _ l1 h1 => ?_
  refine TakesAt.bind (takes_uint _ _ (by decide)) (by omega) fun _ _ _ l2 h2 => ?_
  refine TakesAt.bind (takes_uint _ _ (by decide)) (by omega) fun h _ _ c hc => ?_
  have hv := uint_val hc
  have h0 := uint_val h0
  have h1 := uint_val h1
  have h2 := uint_val h2
  simp only [Nat.zero_add, Nat.reduceAdd] at *
  rw [← hv, ← h0, ← h1, ← h2]
  have hE : ∀ o, TakesAt S o (TfraEntry.readData (vw fb) l0 l1 l2) (o + 8 * ((if fieldAt S 0 8 = 0 then 8 else 16) +
    (l0.toNat + 1) + (l1.toNat + 1) + (l2.toNat + 1))) := by
    intro o
    rw [fullBox_vw hr]
    refine (TfraEntry.takes 0 l0 l1 l2 _ o (by split <;> omega)).congr ?_
    split <;> omega
  have e : c.toNat * (8 * ((if fieldAt S 0 8 = 0 then 8 else 16) + (l0.toNat + 1) + (l1.toNat + 1) + (l2.toNat + 1)))
    = 8 * (c.toNat * ((if fieldAt S 0 8 = 0 then 8 else 16) + (l0.toNat + 1) + (l1.toNat + 1) + (l2.toNat + 1))) :=
    Nat.mul_left_comm _ _ _
  refine TakesAt.bind (takes_readN hE c.toNat _ h) (by omega) fun _ _ _ _ _ => ?_
  exact TakesAt.ret (by omega) (by omega)

theorem VpcC.takes : TakesAt S 0 VpcC.readData (8 * if fieldAt S 0 8 = 0 then 10 else 12 + fieldAt S 80 16) := by
  rw [VpcC.readData]
  simp only [R.bind_eq, R.pure_eq]
  refine TakesAt.bind takes_fullBox (by split <;> omega) fun _ _ _ fb hr => ?_
  simp only [fullBox_version hr]
  split
  · takes_fields
    exact TakesAt.ret (by omega) (by omega)
  · refine TakesAt.bind (takes_uint _ _ (by decide)) (by omega) fun _ _ _ _ _ => ?_
    refine TakesAt.bind (takes_uint _ _ (by decide)) (by omega) fun _ _ _ _ _ => ?_
    refine TakesAt.bind (takes_uint _ _ (by decide)) (by omega) fun _ _ _ _ _ => ?_
    refine TakesAt.bind (takes_uint _ _ (by decide)) (by omega) fun _ _ _ _ _ => ?_
    refine TakesAt.bind (takes_uint _ _ (by decide)) (by omega) fun _ _ _ _ _ => ?_
    refine TakesAt.bind (takes_uint _ _ (by decide)) (by omega) fun _ _ _ _ _ => ?_
    refine TakesAt.bind (takes_uint _ _ (by decide)) (by omega) fun _ _ _ _ _ => ?_
    refine TakesAt.bind (takes_uint _ _ (by decide)) (by omega) fun _ _ _ _ _ => ?_
    refine TakesAt.bind (takes_uint _ _ (by decide)) (by omega) fun h _ _ c hc => ?_
    have hv := uint_val hc
    simp only [Nat.zero_add, Nat.reduceAdd] at *
    refine TakesAt.bind (takes_vector 8 c.toNat (by decide) h) (by omega) fun _ _ _ _ _ => ?_
    exact TakesAt.ret (by omega) (by omega)

theorem DOps.takes : TakesAt S 0 DOps.readData (8 * if fieldAt S 80 8 = 0 then 11 else 13 + fieldAt S 8 8) := by
  rw [DOps.readData]
  simp only [R.bind_eq, R.pure_eq]
  refine TakesAt.bind (takes_uint _ _ (by decide)) (by split <;> omega) fun _ _ _ _ _ => ?_
  refine TakesAt.bind (takes_uint _ _ (by decide)) (by split <;> omega) fun _ _ _ c hc => ?_
  refine TakesAt.bind (takes_uint _ _ (by decide)) (by split <;> omega) fun _ _ _ _ _ => ?_
  refine TakesAt.bind (takes_uint _ _ (by decide)) (by split <;> omega) fun _ _ _ _ _ => ?_
  refine TakesAt.bind (takes_int _ _ (by decide)) (by split <;> omega) fun _ _ _ _ _ => ?_
  refine TakesAt.bind (takes_uint _ _ (by decide)) (by split <;> omega) fun _ _ _ f hf => ?_
  have hv := uint_val hc
  have hf := uint_val hf
  simp only [Nat.zero_add, Nat.reduceAdd] at *
  have e : f = 0#8 ↔ fieldAt S 80 8 = 0 := by
    rw [← hf]; exact ⟨fun h => by rw [h]; rfl, fun h => BitVec.eq_of_toNat_eq h⟩
  simp only [e]
  split
  · exact TakesAt.ret (by omega) (by omega)
  · refine TakesAt.bind (takes_uint _ _ (by decide)) (by omega) fun _ _ _ _ _ => ?_
    refine TakesAt.bind (takes_uint _ _ (by decide)) (by omega) fun h _ _ _ _ => ?_
    refine TakesAt.bind (takes_vector 8 c.toNat (by decide) h) (by omega) fun _ _ _ _ _ => ?_
    exact TakesAt.ret (by omega) (by omega)

theorem Pssh.takes (old : Pssh) : TakesAt S 0 (Pssh.readData old) (8 * if fieldAt S 0 8 = 0 then 24 + fieldAt S 160 32
    else 28 + 16 * fieldAt S 160 32 + fieldAt S (192 + 128 * fieldAt S 160 32) 32) := by
  rw [Pssh.readData]
  simp only [R.bind_eq, R.pure_eq]
  refine TakesAt.bind takes_fullBox (by split <;> omega) fun _ _ _ fb hr => ?_
  simp only [ne_eq, show (0 : Byte) = 0#8 from rfl, fullBox_version hr]
  refine TakesAt.bind (takes_arr _ _ (by decide) (by omega)) (by split <;> omega) fun h0 _ _ _ _ => ?_
  by_cases h : fieldAt S 0 8 = 0
  · simp only [h, not_true_eq_false, decide_false, if_true]
    refine TakesAt.bind (TakesAt.ret (n := 0) (a := old.kids) rfl h0) (by simp; omega) fun _ _ _ _ _ => ?_
    refine TakesAt.bind (takes_uint _ _ (by decide)) (by simp; omega) fun h _ _ c hc => ?_
    have hv := uint_val hc
    simp only [Nat.zero_add, Nat.reduceAdd, Bool.false_eq_true, if_false, Nat.add_zero, Nat.mul_zero, Nat.reduceMul] at *
    refine TakesAt.bind (takes_vector 8 c.toNat (by decide) h) (by omega) fun _ _ _ _ _ => ?_
    exact TakesAt.ret (by omega) (by omega)
  · simp only [h, not_false_eq_true, decide_true, if_false]
    have hk : TakesAt S 160 ((read_uint 32).bind fun x => (readN (read_arr 8 16) x.2.toNat).bind fun y =>
        .ret (x.1 + y.1, y.2)) (192 + 128 * fieldAt S 160 32) := by
      refine TakesAt.bind (takes_uint _ _ (by decide)) (by omega) fun h _ _ c hc => ?_
      have hv := uint_val hc
      rw [← hv]
      refine TakesAt.bind (takes_readN' (k := 128) (fun _ ho => takes_arr 8 16 (by decide) ho) c.toNat _ h) (by omega)
        fun _ _ _ _ _ => ?_
      exact TakesAt.ret (by omega) (by omega)
    simp only [Nat.zero_add, Nat.reduceAdd, Nat.reduceMul] at *
    refine TakesAt.bind (M := 192 + 128 * fieldAt S 160 32) hk (by omega) fun _ _ _ _ _ => ?_
    refine TakesAt.bind (takes_uint _ _ (by decide)) (by omega) fun h _ _ c hc => ?_
    have hv := uint_val hc
    refine TakesAt.bind (takes_vector 8 c.toNat (by decide) h) (by omega) fun _ _ _ _ _ => ?_
    exact TakesAt.ret (by omega) (by omega)

/-! the classes that read to the end -/

theorem Opaque.takes {L : Nat} (hS : S.length = 8 * L) : TakesAt S 0 Opaque.readData (8 * L) := by
  rw [Opaque.readData]
  simp only [R.bind_eq, R.pure_eq]
  refine TakesAt.toEnd ?_
  refine TakesAt.bind (takes_vector 8 _ (by decide) (by omega)) (by omega) fun _ _ _ _ _ => ?_
  exact TakesAt.ret (by omega) (by omega)

theorem Sdtp.takes {L : Nat} (hS : S.length = 8 * L) : TakesAt S 0 Sdtp.readData (8 * max 4 L) := by
  rw [Sdtp.readData]
  simp only [R.bind_eq, R.pure_eq]
  refine TakesAt.bind takes_fullBox (by omega) fun h _ _ _ _ => ?_
  refine TakesAt.toEnd ?_
  refine TakesAt.bind (takes_readN (fun _ => SdtpSample.takes) _ _ h) (by omega) fun _ _ _ _ _ => ?_
  exact TakesAt.ret (by omega) (by omega)

theorem Data.takes {L : Nat} (hS : S.length = 8 * L) : TakesAt S 0 Data.readData (8 * max 8 L) := by
  rw [Data.readData]
  takes_fields
  refine TakesAt.toEnd ?_
  refine TakesAt.bind (takes_vector 8 _ (by decide) (by omega)) (by omega) fun _ _ _ _ _ => ?_
  exact TakesAt.ret (by omega) (by omega)

theorem Av1C.takes {L : Nat} (hS : S.length = 8 * L) : TakesAt S 0 Av1C.readData (8 * max 4 L) := by
  rw [Av1C.readData]
  takes_fields
  refine TakesAt.toEnd ?_
  refine TakesAt.bind (takes_vector 8 _ (by decide) (by omega)) (by omega) fun _ _ _ _ _ => ?_
  exact TakesAt.ret (by omega) (by omega)

theorem code4_val {o : Nat} {d : List Byte} {n : Nat} {a : Arr4} {s' : List Bool}
    (h : read_array_uint8_4.run d (S.drop o) = .ok ((n, a), s')) :
    fieldAt S o 32 = ((a.b0.toNat * 256 + a.b1.toNat) * 256 + a.b2.toNat) * 256 + a.b3.toNat := by
  obtain ⟨h1, -⟩ := reads_code4 d _ n a s' h
  rw [fieldAt, h1]
  have e : (code4 a ++ s').take 32 = code4 a := List.take_left' (by simp [code4])
  rw [e]
  simp [code4, ofBits_append]
  omega

theorem code4_nclx (a : Arr4) :
    Colr.isNclx a = decide (((a.b0.toNat * 256 + a.b1.toNat) * 256 + a.b2.toNat) * 256 + a.b3.toNat = 0x6e636c78) := by
  obtain ⟨a, b, c, e⟩ := a
  have h0 := a.isLt; have h1 := b.isLt; have h2 := c.isLt; have h3 := e.isLt
  rw [Colr.isNclx, Bool.eq_iff_iff, beq_iff_eq, decide_eq_true_eq]
  constructor
  · intro h; cases h; rfl
  · intro h
    have : a.toNat = 0x6e ∧ b.toNat = 0x63 ∧ c.toNat = 0x6c ∧ e.toNat = 0x78 := by dsimp only at h; omega
    rw [show a = 0x6e#8 from BitVec.eq_of_toNat_eq this.1, show b = 0x63#8 from BitVec.eq_of_toNat_eq this.2.1,
      show c = 0x6c#8 from BitVec.eq_of_toNat_eq this.2.2.1, show e = 0x78#8 from BitVec.eq_of_toNat_eq this.2.2.2]

theorem Colr.takes {L : Nat} (hS : S.length = 8 * L) (old : Colr) :
    TakesAt S 0 (Colr.readData old) (8 * if fieldAt S 0 32 = 0x6e636c78 then 11 else max 4 L) := by
  rw [Colr.readData]
  simp only [R.bind_eq, R.pure_eq]
  refine TakesAt.bind takes_code4 (by split <;> omega) fun h _ _ a ha => ?_
  simp only [code4_nclx, ← code4_val ha, decide_eq_true_eq]
  split
  · takes_fields
    exact TakesAt.ret (by omega) (by omega)
  · refine TakesAt.toEnd ?_
    split
    all_goals
      refine TakesAt.bind (takes_vector 8 _ (by decide) (by omega)) (by omega) fun _ _ _ _ _ => ?_
      exact TakesAt.ret (by omega) (by omega)

theorem AudioSampleEntry.takes {L : Nat} (hS : S.length = 8 * L) (old : AudioSampleEntry) :
    TakesAt S 0 (AudioSampleEntry.readData old) (8 *
      if old.under_wave then L
      else if old.type = fourcc "Opus" ∨ fieldAt S 64 16 = 0 ∨ L ≤ 28 then 28
      else if fieldAt S 64 16 = 1 then 44
      else if fieldAt S 64 16 = 2 then 64
      else L) := by
  rw [AudioSampleEntry.readData]
  simp only [R.bind_eq, R.pure_eq]
  by_cases hw : old.under_wave = true
  · simp only [hw, if_true]
    refine TakesAt.toEnd ?_
    refine TakesAt.bind (takes_vector 8 _ (by decide) (by omega)) (by omega) fun _ _ _ _ _ => ?_
    exact TakesAt.ret (by omega) (by omega)
  · simp only [hw, if_false, Bool.false_eq_true]
    generalize hN : (8 * if old.type = fourcc "Opus" ∨ fieldAt S 64 16 = 0 ∨ L ≤ 28 then 28
      else if fieldAt S 64 16 = 1 then 44
      else if fieldAt S 64 16 = 2 then 64
      else L) = N
    have hb : 224 ≤ N := by
      rw [← hN]
      split
      · omega
      · next h => simp only [not_or] at h; split <;> (try split) <;> omega
    refine TakesAt.bind (takes_reservedAndIndex (by omega)) (by omega) fun _ _ _ _ _ => ?_
    refine TakesAt.bind (takes_uint _ _ (by decide)) (by omega) fun _ _ _ v hv => ?_
    takes_fields
    have hv := uint_val hv
    simp only [Nat.zero_add, Nat.reduceAdd, Nat.reduceMul] at *
    have ev : ∀ k : BitVec 16, v = k ↔ fieldAt S 64 16 = k.toNat := by
      intro k; rw [← hv]; exact ⟨fun h => by rw [h], fun h => BitVec.eq_of_toNat_eq h⟩
    have e0 : v = 0 ↔ fieldAt S 64 16 = 0 := ev 0
    have e1 : v = 1 ↔ fieldAt S 64 16 = 1 := ev 1
    have e2 : v = 2 ↔ fieldAt S 64 16 = 2 := ev 2
    simp only [e0, AudioSampleEntry.getLengthOfQuickTimeData, e1, e2]
    split
    · next h =>
      rw [if_pos (by rcases h with h | h <;> simp [h])] at hN
      exact TakesAt.ret (by omega) (by omega)
    · next h =>
      refine TakesAt.toEnd ?_
      split
      · next h2 =>
        rw [if_pos (by omega)] at hN
        exact TakesAt.ret (by omega) (by omega)
      · next h2 =>
        have hno : ¬ (old.type = fourcc "Opus" ∨ fieldAt S 64 16 = 0 ∨ L ≤ 28) := by
          rintro (h3 | h3 | h3)
          · exact h (.inl h3)
          · exact h (.inr h3)
          · omega
        rw [if_neg hno] at hN
        refine TakesAt.bind (M := N) ((takes_vector 8 _ (by decide) (by omega)).congr ?_) (by omega) fun h _ _ _ _ =>
          TakesAt.ret rfl h
        rw [← hN]
        by_cases h3 : fieldAt S 64 16 = 1
        · simp only [h3, if_true]
        · by_cases h4 : fieldAt S 64 16 = 2
          · simp only [h4, if_true]; simp
          · simp only [h3, h4, if_false]; omega

/-! parameter sets -/

theorem setsEnd_ge (d : List Byte) (k o : Nat) : o ≤ Spec.setsEnd d k o := by
  induction k generalizing o with
  | zero => exact Nat.le_refl _
  | succ k ih => have := ih (o + 2 + Spec.numAt d o 2); rw [Spec.setsEnd]; omega

theorem sets_takes (d : List Byte) (k o : Nat) (ho : o ≤ d.length) :
    TakesAt (bytesBits d) (8 * o) (readN AVCParameterSet.readData k) (8 * Spec.setsEnd d k o) := by
  induction k generalizing o with
  | zero => exact TakesAt.ret rfl (by rw [bytesBits_length, Spec.setsEnd]; omega)
  | succ k ih =>
    rw [readN, Spec.setsEnd]
    simp only [bind_eq, pure_eq]
    have hge := setsEnd_ge d k (o + 2 + Spec.numAt d o 2)
    have h1 : TakesAt (bytesBits d) (8 * o) AVCParameterSet.readData (8 * (o + 2 + Spec.numAt d o 2)) := by
      rw [AVCParameterSet.readData]
      simp only [bind_eq, pure_eq]
      refine TakesAt.bind (takes_uint _ _ (by decide)) (by omega) fun h _ _ c hc => ?_
      have hv := uint_val hc
      rw [fieldAt_bytes d o 2] at hv
      refine TakesAt.bind (takes_vector 8 c.toNat (by decide) h) (by omega) fun _ _ _ _ _ => ?_
      exact TakesAt.ret (by omega) (by omega)
    refine TakesAt.bind h1 (by omega) fun h _ _ _ _ => ?_
    rw [bytesBits_length] at h
    refine TakesAt.bind (ih _ (by omega)) (by omega) fun h2 _ _ _ _ => ?_
    exact TakesAt.ret rfl h2

theorem high_val (v : Byte) : is_avc_high_profile v = true ↔ v.toNat ∈ Spec.highProfiles := by
  revert v; decide +kernel

theorem AvcC.takes (old : AvcC) (d : List Byte) : TakesAt (bytesBits d) 0 (AvcC.readData old) (8 *
    let e := Spec.setsEnd d (Spec.numAt d 5 1 % 32) 6
    let f := Spec.setsEnd d (Spec.numAt d e 1) (e + 1)
    if Spec.numAt d 1 1 ∈ Spec.highProfiles ∧ f + 4 ≤ d.length then Spec.setsEnd d (Spec.numAt d (f + 3) 1) (f + 4) else f) := by
  dsimp only
  generalize he : Spec.setsEnd d (Spec.numAt d 5 1 % 32) 6 = e
  generalize hf : Spec.setsEnd d (Spec.numAt d e 1) (e + 1) = f
  have h6 : 6 ≤ e := he ▸ setsEnd_ge _ _ _
  have h7 : e + 1 ≤ f := hf ▸ setsEnd_ge _ _ _
  generalize hN : (if Spec.numAt d 1 1 ∈ Spec.highProfiles ∧ f + 4 ≤ d.length then Spec.setsEnd d (Spec.numAt d (f + 3) 1) (f + 4) else f) = N
  have hfN : f ≤ N := by
    rw [← hN]; split
    · have := setsEnd_ge d (Spec.numAt d (f + 3) 1) (f + 4); omega
    · omega
  rw [AvcC.readData]
  simp only [bind_eq, pure_eq]
  refine TakesAt.bind (takes_uint _ _ (by decide)) (by omega) fun _ _ _ _ _ => ?_
  refine TakesAt.bind (takes_uint _ _ (by decide)) (by omega) fun _ _ _ pr hpr => ?_
  refine TakesAt.bind (takes_uint _ _ (by decide)) (by omega) fun _ _ _ _ _ => ?_
  refine TakesAt.bind (takes_uint _ _ (by decide)) (by omega) fun _ _ _ _ _ => ?_
  refine TakesAt.bind (takes_uint _ _ (by decide)) (by omega) fun _ _ _ _ _ => ?_
  refine TakesAt.bind (takes_uint _ _ (by decide)) (by omega) fun _ _ _ _ _ => ?_
  refine TakesAt.bind (takes_uint _ _ (by decide)) (by omega) fun _ _ _ _ _ => ?_
  refine TakesAt.bind (takes_uint _ _ (by decide)) (by omega) fun hl _ _ c hc => ?_
  have hv := uint_val hc
  have hpr := uint_val hpr
  simp only [Nat.zero_add, Nat.reduceAdd] at *
  rw [fieldAt_bytes d 1 1] at hpr
  have hadd := fieldAt_add (bytesBits d) 40 3 5 hl
  have hlt := fieldAt_lt (bytesBits d) 43 5
  rw [show (3 + 5 : Nat) = 8 from rfl, show (40 + 3 : Nat) = 43 from rfl, fieldAt_bytes d 5 1] at hadd
  have hc' : c.toNat = Spec.numAt d 5 1 % 32 := by omega
  rw [hc']
  rw [bytesBits_length] at hl
  have hs := sets_takes d (Spec.numAt d 5 1 % 32) 6 (by omega)
  rw [he] at hs
  refine TakesAt.bind hs (by omega) fun _ _ _ _ _ => ?_
  refine TakesAt.bind (takes_uint _ _ (by decide)) (by omega) fun hl2 _ _ c2 hc2 => ?_
  have hv2 := uint_val hc2
  rw [fieldAt_bytes d e 1] at hv2
  rw [bytesBits_length] at hl2
  have hs2 := sets_takes d c2.toNat (e + 1) (by omega)
  rw [hv2, hf] at hs2
  rw [hv2]
  refine TakesAt.bind (M := 8 * f) hs2 (by omega) fun hl3 _ _ _ _ => ?_
  rw [bytesBits_length] at hl3
  dsimp only
  by_cases hp : Spec.numAt d 1 1 ∈ Spec.highProfiles
  · have hp' : is_avc_high_profile pr = true := (high_val pr).2 (hpr ▸ hp)
    simp only [hp', Bool.not_true, Bool.false_eq_true, if_false]
    refine TakesAt.toEnd ?_
    rw [bytesBits_length]
    split
    · next hlt4 =>
      rw [if_neg (by omega)] at hN
      exact TakesAt.ret (by omega) (by rw [bytesBits_length]; omega)
    · next hlt4 =>
      rw [if_pos ⟨hp, by omega⟩] at hN
      have hge := setsEnd_ge d (Spec.numAt d (f + 3) 1) (f + 4)
      refine TakesAt.bind (takes_uint _ _ (by decide)) (by omega) fun _ _ _ _ _ => ?_
      refine TakesAt.bind (takes_uint _ _ (by decide)) (by omega) fun _ _ _ _ _ => ?_
      refine TakesAt.bind (takes_uint _ _ (by decide)) (by omega) fun _ _ _ _ _ => ?_
      refine TakesAt.bind (takes_uint _ _ (by decide)) (by omega) fun _ _ _ _ _ => ?_
      refine TakesAt.bind (takes_uint _ _ (by decide)) (by omega) fun _ _ _ _ _ => ?_
      refine TakesAt.bind (takes_uint _ _ (by decide)) (by omega) fun _ _ _ _ _ => ?_
      refine TakesAt.bind (takes_uint _ _ (by decide)) (by omega) fun _ _ _ c3 hc3 => ?_
      have hv3 := uint_val hc3
      have ho : 8 * f + 6 + 2 + 5 + 3 + 5 + 3 = 8 * (f + 3) := by omega
      rw [ho] at hv3 ⊢
      rw [fieldAt_bytes d (f + 3) 1] at hv3
      rw [hv3]
      have hs3 := sets_takes d (Spec.numAt d (f + 3) 1) (f + 4) (by omega)
      rw [hN] at hs3
      refine TakesAt.bind hs3 (by omega) fun h _ _ _ _ => ?_
      exact TakesAt.ret rfl h
  · have hp' : is_avc_high_profile pr = false := by
      rw [← Bool.not_eq_true, high_val, hpr]; exact hp
    simp only [hp', Bool.not_false, if_true]
    rw [if_neg (fun h => hp h.1)] at hN
    exact TakesAt.ret (by omega) (by rw [bytesBits_length]; omega)

end Mp4
