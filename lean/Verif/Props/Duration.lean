import Verif.Lemmas.Float
import Verif.Props.Movie

/-! # C59: durations given in seconds

`Track` and the writers take durations as `float` seconds and store them in units of a time scale. -/

namespace Mp4
open Spec

/-! ### The model's `float`s -/

theorem Float32.ofBits_finite (b : BitVec 32) (h : FiniteFloat b) :
    ∃ x : Bin, Float32.ofBits b = .fin b.msb x ∧ x.val = floatValue b ∧ (floatValue b = 0 ↔ x.m = 0) := by
  unfold FiniteFloat floatExponent at h
  have h' : ¬ b.toNat / 2 ^ 23 % 256 = 255 := h
  unfold Float32.ofBits floatValue floatExponent floatFraction
  dsimp only
  rw [if_neg h']
  by_cases h0 : b.toNat / 2 ^ 23 % 2 ^ 8 = 0
  · have h0' : b.toNat / 2 ^ 23 % 256 = 0 := h0
    rw [if_pos h0, if_pos h0']
    have hv : (⟨b.toNat % 2 ^ 23, -149⟩ : Bin).val = 2 ^ (-126 : ℤ) * (((b.toNat % 2 ^ 23 : ℕ) : ℚ) / 2 ^ 23) := by
      unfold Bin.val
      dsimp only
      rw [show (-149 : ℤ) = -126 + -23 by norm_num, zpow_split, show (2 : ℚ) ^ (-23 : ℤ) = 1 / 2 ^ 23 by norm_num]
      ring
    refine ⟨_, rfl, hv, ?_⟩
    rw [← hv]; unfold Bin.val
    have : (2 : ℚ) ^ (-149 : ℤ) ≠ 0 := by positivity
    dsimp only
    rw [mul_eq_zero, or_iff_left this]; exact Nat.cast_eq_zero
  · have h0' : ¬ b.toNat / 2 ^ 23 % 256 = 0 := h0
    rw [if_neg h0, if_neg h0']
    generalize hE : b.toNat / 2 ^ 23 % 256 = E
    generalize b.toNat % 2 ^ 23 = f
    have hv : (⟨2 ^ 23 + f, (E : ℤ) - 150⟩ : Bin).val = 2 ^ ((E : ℤ) - 127) * (1 + (f : ℚ) / 2 ^ 23) := by
      unfold Bin.val
      dsimp only
      rw [show (E : ℤ) - 150 = (E - 127) + -23 by ring, zpow_split, show (2 : ℚ) ^ (-23 : ℤ) = 1 / 2 ^ 23 by norm_num]
      push_cast
      ring
    refine ⟨_, rfl, hv, ?_⟩
    constructor
    · intro h
      have : (0 : ℚ) < 2 ^ ((E : ℤ) - 127) * (1 + (f : ℚ) / 2 ^ 23) := by positivity
      linarith
    · intro h
      have h : 2 ^ 23 + f = 0 := h
      omega

theorem floatValue_nonneg (b : BitVec 32) : 0 ≤ floatValue b := by
  unfold floatValue; split <;> positivity

theorem representable_nat (n : ℕ) (h : n < 2 ^ 24) : Representable 24 (-149) n := ⟨n, 0, h, by norm_num, by norm_num⟩

theorem representable_pow (n : ℕ) : Representable 24 (-149) (2 ^ n) := ⟨1, n, by norm_num, by omega, by norm_num⟩

theorem lt_of_trunc_lt {x : Bin} {n : ℕ} (h : x.trunc < n) : x.val < n := by
  rw [Bin.trunc_eq] at h
  exact (Nat.floor_lt x.val_nonneg).mp h

theorem trunc_lt {x : Bin} {n : ℕ} (h : x.val < n) : x.trunc < n := by
  rw [Bin.trunc_eq]; exact (Nat.floor_lt x.val_nonneg).mpr h

theorem bin_exact (n : ℕ) : (⟨n, 0⟩ : Bin).val = n := by unfold Bin.val; norm_num

theorem ofUInt32_eq (n : BitVec 32) : ∃ x : Bin, Float32.ofUInt32 n = .fin false x ∧ RoundedFloat n.toNat x.val := by
  have hr : RoundedFloat n.toNat ((⟨n.toNat, 0⟩ : Bin).round 24 (-149)).val := by
    have := Bin.round_rounded 24 (by norm_num) (-149) ⟨n.toNat, 0⟩
    rwa [bin_exact] at this
  have hb : Rounded 24 (-149) (2 ^ 32) ((⟨2 ^ 32, 0⟩ : Bin).round 24 (-149)).val := by
    have := Bin.round_rounded 24 (by norm_num) (-149) ⟨2 ^ 32, 0⟩
    rwa [bin_exact, show ((2 ^ 32 : ℕ) : ℚ) = 2 ^ 32 by norm_num] at this
  have h1 : ((⟨n.toNat, 0⟩ : Bin).round 24 (-149)).val ≤ 2 ^ 32 := by
    have h2 := Rounded.mono hr hb (by
      have : n.toNat ≤ 2 ^ 32 := Nat.le_of_lt n.isLt
      exact_mod_cast this)
    rwa [hb.exact (representable_pow 32)] at h2
  refine ⟨_, ?_, hr⟩
  unfold Float32.ofUInt32 Float32.rounded
  dsimp only
  rw [if_neg]
  have h3 : ((⟨n.toNat, 0⟩ : Bin).round 24 (-149)).trunc < 2 ^ 128 := by
    apply trunc_lt
    refine lt_of_le_of_lt h1 ?_
    norm_num
  omega

theorem durationIn_eq (ts d : BitVec 32) (hd : FiniteFloat d) :
    ∃ (t : ℚ) (x : Bin), RoundedFloat ts.toNat t ∧ RoundedFloat (t * floatValue d) x.val ∧
      durationIn ts d = if x.trunc < 2 ^ 64 ∧ (d.msb = true → x.trunc = 0) then some (BitVec.ofNat 64 x.trunc) else none := by
  obtain ⟨t, ht1, ht2⟩ := ofUInt32_eq ts
  obtain ⟨b, hb1, hb2, -⟩ := Float32.ofBits_finite d hd
  refine ⟨t.val, (⟨t.m * b.m, t.e + b.e⟩ : Bin).round 24 (-149), ht2, ?_, ?_⟩
  · have := Bin.round_rounded 24 (by norm_num) (-149) ⟨t.m * b.m, t.e + b.e⟩
    have e : (⟨t.m * b.m, t.e + b.e⟩ : Bin).val = t.val * floatValue d := by
      rw [← hb2]; unfold Bin.val; dsimp only; rw [zpow_split]; push_cast; ring
    rwa [e] at this
  · unfold durationIn
    rw [ht1, hb1]
    unfold Float32.mul Float32.rounded
    dsimp only
    rw [Bool.false_xor]
    generalize Bin.round 24 (-149) ⟨t.m * b.m, t.e + b.e⟩ = x
    split
    · rename_i h
      rw [Float32.toUInt64, if_neg]
      intro h2
      have := h2.1
      norm_num at h this
      omega
    · rfl

/-! ### Errors -/

theorem Spec.RoundedFloat.nat_error {n : ℕ} {t : ℚ} (h : RoundedFloat n t) : 2 ^ 24 * |t - n| ≤ n := by
  rcases Rounded.error (by norm_num) h (by positivity) with h1 | ⟨-, h2⟩
  · exact h1
  · have h3 : (n : ℚ) < 1 := lt_trans h2 (by norm_num)
    have h4 : n = 0 := by
      have : n < 1 := by exact_mod_cast h3
      omega
    subst h4
    have : t = 0 := by
      have := h.exact (x := ((0 : ℕ) : ℚ)) (representable_nat 0 (by norm_num))
      simpa using this
    rw [this]; norm_num

/-- Both roundings together: a relative error of 2^-22, or both numbers are below 1. -/
theorem product_error {n : ℕ} {t s p : ℚ} (hs : 0 ≤ s) (ht : RoundedFloat n t) (hp : RoundedFloat (t * s) p) :
    2 ^ 22 * |p - n * s| ≤ n * s ∨ (p < 1 ∧ n * s < 1) := by
  have h1 := Spec.RoundedFloat.nat_error ht
  have ht0 : 0 ≤ t := ht.nonneg
  have hn0 : (0 : ℚ) ≤ n := by positivity
  have h2 := abs_le.mp (show |t - n| ≤ n / 2 ^ 24 by linarith)
  have h3 : t * s ≤ (n + n / 2 ^ 24) * s := mul_le_mul_of_nonneg_right (by linarith) hs
  have h4 : (n - n / 2 ^ 24) * s ≤ t * s := mul_le_mul_of_nonneg_right (by linarith) hs
  have hV : 0 ≤ (n : ℚ) * s := by positivity
  have h3' : t * s ≤ n * s + n * s / 2 ^ 24 := by linarith [show (n + (n : ℚ) / 2 ^ 24) * s = n * s + n * s / 2 ^ 24 by ring]
  have h4' : n * s - n * s / 2 ^ 24 ≤ t * s := by linarith [show (n - (n : ℚ) / 2 ^ 24) * s = n * s - n * s / 2 ^ 24 by ring]
  generalize (n : ℚ) * s = V at *
  generalize t * s = T at *
  rcases Rounded.error (by norm_num) hp (by linarith) with h5 | ⟨h5, h6⟩
  · left
    have h6 := abs_le.mp (show |p - T| ≤ T / 2 ^ 24 by linarith)
    have : |p - V| ≤ V / 2 ^ 22 := by
      rw [abs_le]; constructor <;> linarith
    linarith
  · right
    have h7 : T < 1 / 4 := lt_trans h6 (by norm_num)
    have h8 : (2 : ℚ) ^ (-149 : ℤ) ≤ 1 / 4 := by norm_num
    have h5' : 2 * |p - T| ≤ 1 / 4 := le_trans h5 h8
    have h9 := abs_le.mp (show |p - T| ≤ 1 / 8 by linarith)
    constructor <;> linarith

/-! ### The property -/

/-- **C59** The stored duration is the IEEE product of the rounded time scale and the duration, rounded to a `float` and then rounded
towards zero; nothing is stored (undefined behaviour) exactly when that is not below 2^64. -/
theorem C59_rounded (ts d : BitVec 32) (hd : FiniteFloat d) (hs : d.msb = false) :
    ∃ t p : ℚ, RoundedFloat ts.toNat t ∧ RoundedFloat (t * floatValue d) p ∧
      durationIn ts d = if p < 2 ^ 64 then some (BitVec.ofNat 64 ⌊p⌋₊) else none := by
  obtain ⟨t, x, h1, h2, h3⟩ := durationIn_eq ts d hd
  refine ⟨t, x.val, h1, h2, ?_⟩
  rw [h3, hs]
  by_cases h : x.trunc < 2 ^ 64
  · have := lt_of_trunc_lt h
    rw [if_pos ⟨h, by simp⟩, if_pos (by exact_mod_cast this), Bin.trunc_eq]
  · rw [if_neg (by tauto), if_neg]
    intro hc
    exact h (trunc_lt (by exact_mod_cast hc))

/-- **C59** A negative duration: 0 is stored when the product is above -1, else the behaviour is undefined. -/
theorem C59_negative (ts d : BitVec 32) (hd : FiniteFloat d) (hs : d.msb = true) :
    ∃ t p : ℚ, RoundedFloat ts.toNat t ∧ RoundedFloat (t * floatValue d) p ∧
      durationIn ts d = if p < 1 then some 0 else none := by
  obtain ⟨t, x, h1, h2, h3⟩ := durationIn_eq ts d hd
  refine ⟨t, x.val, h1, h2, ?_⟩
  rw [h3]
  by_cases h : x.trunc = 0
  · have : x.val < 1 := by exact_mod_cast lt_of_trunc_lt (n := 1) (by omega)
    rw [if_pos ⟨by rw [h]; norm_num, fun _ => h⟩, if_pos this, h]; rfl
  · rw [if_neg (fun hc => h (hc.2 hs)), if_neg]
    intro hc
    have := trunc_lt (n := 1) (x := x) (by exact_mod_cast hc)
    omega

/-- **C59** An infinite duration or a NaN: undefined behaviour. -/
theorem C59_not_finite (ts d : BitVec 32) (hd : ¬ FiniteFloat d) : durationIn ts d = none := by
  have h : d.toNat / 2 ^ 23 % 256 = 255 := by
    by_contra h
    exact hd h
  obtain ⟨t, ht, -⟩ := ofUInt32_eq ts
  unfold durationIn Float32.ofBits
  dsimp only
  rw [if_pos h, ht]
  split
  · unfold Float32.mul
    dsimp only
    split <;> rfl
  · rfl

theorem stored_floor {p : ℚ} {v : BitVec 64} (hp : 0 ≤ p) (h : (if p < 2 ^ 64 then some (BitVec.ofNat 64 ⌊p⌋₊) else none) = some v) :
    v.toNat = ⌊p⌋₊ ∧ p < 2 ^ 64 := by
  split at h
  · rename_i hlt
    cases h
    refine ⟨?_, hlt⟩
    rw [BitVec.toNat_ofNat]
    apply Nat.mod_eq_of_lt
    rw [Nat.floor_lt hp]
    exact_mod_cast hlt
  · cases h

/-- **C59** Whole numbers of units are stored exactly, as long as the time scale and they have at most 24 bits. -/
theorem C59_exact (ts d : BitVec 32) (hd : FiniteFloat d) (hs : d.msb = false) (n : ℕ) (hts : ts.toNat < 2 ^ 24) (hn : n < 2 ^ 24)
    (h : ts.toNat * floatValue d = n) : durationIn ts d = some (BitVec.ofNat 64 n) := by
  obtain ⟨t, p, h1, h2, h3⟩ := C59_rounded ts d hd hs
  have ht : t = ts.toNat := h1.exact (representable_nat _ hts)
  rw [ht, h] at h2
  have hp : p = n := h2.exact (representable_nat _ hn)
  rw [h3, hp, Nat.floor_natCast, if_pos]
  have : n < 2 ^ 64 := Nat.lt_trans hn (by norm_num)
  exact_mod_cast this

/-- **C59** The stored number of units is off by less than one unit and one part in 2^22. -/
theorem C59_error (ts d : BitVec 32) (hd : FiniteFloat d) (hs : d.msb = false) (v : BitVec 64) (h : durationIn ts d = some v) :
    |(v.toNat : ℚ) - ts.toNat * floatValue d| < 1 + ts.toNat * floatValue d / 2 ^ 22 := by
  obtain ⟨t, p, h1, h2, h3⟩ := C59_rounded ts d hd hs
  rw [h3] at h
  have hp0 : 0 ≤ p := h2.nonneg
  obtain ⟨hv, -⟩ := stored_floor hp0 h
  rw [hv]
  have f1 := Nat.floor_le hp0
  have f2 := Nat.lt_floor_add_one p
  have hV : 0 ≤ (ts.toNat : ℚ) * floatValue d := mul_nonneg (by positivity) (floatValue_nonneg d)
  rcases product_error (floatValue_nonneg d) h1 h2 with e | ⟨e1, e2⟩
  · have e := abs_le.mp (show |p - ts.toNat * floatValue d| ≤ ts.toNat * floatValue d / 2 ^ 22 by linarith)
    rw [abs_lt]; constructor <;> linarith
  · have : ⌊p⌋₊ = 0 := Nat.floor_eq_zero.mpr e1
    rw [this, abs_lt]; constructor <;> push_cast <;> linarith

/-- **C59** Defined for all products below 2^64 (up to one part in 2^22); undefined from 2^64 on (up to one part in 2^22). -/
theorem C59_defined (ts d : BitVec 32) (hd : FiniteFloat d) (hs : d.msb = false) :
    (ts.toNat * floatValue d * (1 + 1 / 2 ^ 22) < 2 ^ 64 → ∃ v, durationIn ts d = some v) ∧
    (2 ^ 64 ≤ ts.toNat * floatValue d * (1 - 1 / 2 ^ 22) → durationIn ts d = none) := by
  obtain ⟨t, p, h1, h2, h3⟩ := C59_rounded ts d hd hs
  have hp0 : 0 ≤ p := h2.nonneg
  rw [h3]
  have e := product_error (floatValue_nonneg d) h1 h2
  generalize (ts.toNat : ℚ) * floatValue d = V at e
  constructor
  · intro h
    rw [if_pos]
    · exact ⟨_, rfl⟩
    · rcases e with e | ⟨e1, e2⟩
      · have e := abs_le.mp (show |p - V| ≤ V / 2 ^ 22 by linarith)
        linarith
      · exact lt_trans e1 (by norm_num)
  · intro h
    rw [if_neg]
    intro hc
    rcases e with e | ⟨e1, e2⟩
    · have e := abs_le.mp (show |p - V| ≤ V / 2 ^ 22 by linarith)
      linarith
    · norm_num at h
      linarith

/-- **C59** A longer duration or a finer time scale never gives a smaller number. -/
theorem C59_monotone (ts ts' d d' : BitVec 32) (hd : FiniteFloat d) (hs : d.msb = false) (hd' : FiniteFloat d') (hs' : d'.msb = false)
    (h1 : ts.toNat ≤ ts'.toNat) (h2 : floatValue d ≤ floatValue d') (v v' : BitVec 64) (hv : durationIn ts d = some v)
    (hv' : durationIn ts' d' = some v') : v.toNat ≤ v'.toNat := by
  obtain ⟨t, p, a1, a2, a3⟩ := C59_rounded ts d hd hs
  obtain ⟨t', p', b1, b2, b3⟩ := C59_rounded ts' d' hd' hs'
  rw [a3] at hv
  rw [b3] at hv'
  rw [(stored_floor a2.nonneg hv).1, (stored_floor b2.nonneg hv').1]
  have ht : t ≤ t' := Rounded.mono a1 b1 (by exact_mod_cast h1)
  exact Nat.floor_le_floor (Rounded.mono a2 b2 (mul_le_mul ht h2 (floatValue_nonneg d) b1.nonneg))

/-! ### In the movie -/

/-- `n` units of which `timescale` make a second are `seconds`, up to one unit and one part in 2^22. -/
def Spec.Lasts (n : BitVec 64) (timescale : BitVec 32) (seconds : ℚ) : Prop :=
  |(n.toNat : ℚ) - timescale.toNat * seconds| < 1 + timescale.toNat * seconds / 2 ^ 22

/-- The track was constructed with the `float` duration `d`, for a writer with the time scale `mts`. -/
def MadeFor (mts d : BitVec 32) (a : Spec.TrackAsked) : Prop :=
  FiniteFloat d ∧ d.msb = false ∧
  TrackParameters.make a.params.timescale d mts a.params.time_from_epoch a.params.media_time a.params.track_id a.codec = some a.params

/-- What `trak` says about the track's duration: in the track header and the edit list in units of the movie's time scale, in the media
header in those of the media. -/
def Spec.TrakLasts (mts : BitVec 32) (seconds : ℚ) (trak : Tree) : Prop :=
  ∃ h e m, dataAt ["tkhd"] trak = some (.tkhd h) ∧ dataAt ["edts", "elst"] trak = some (.elst e) ∧
    dataAt ["mdia", "mdhd"] trak = some (.mdhd m) ∧ Lasts h.duration mts seconds ∧ Lasts m.duration m.timescale seconds ∧
    e.entries.map (·.track_duration) = [h.duration]

theorem MadeFor.lasts {mts d : BitVec 32} {a : Spec.TrackAsked} (h : MadeFor mts d a) :
    Lasts a.params.durationInMvhdTimescale mts (floatValue d) ∧
    Lasts a.params.durationInTimescale (timescaleOf a) (floatValue d) := by
  obtain ⟨h1, h2, h3⟩ := h
  unfold TrackParameters.make at h3
  obtain ⟨own, ho, h3⟩ := Option.bind_eq_some_iff.mp h3
  obtain ⟨mv, hm, h3⟩ := Option.bind_eq_some_iff.mp h3
  have h4 := Option.some.inj h3
  have e1 : own = a.params.durationInTimescale := by rw [← h4]
  have e2 : mv = a.params.durationInMvhdTimescale := by rw [← h4]
  subst e1 e2
  refine ⟨C59_error _ _ h1 h2 _ hm, C59_error _ _ h1 h2 _ ?_⟩
  rw [← ho]; unfold timescaleOf; rfl

theorem MadeFor.trak {mts d : BitVec 32} {a : Spec.TrackAsked} (h : MadeFor mts d a) {n : ℕ} {trak : Tree}
    (hp : Spec.Parameters Spec.inObjects a n trak) : TrakLasts mts (floatValue d) trak := by
  obtain ⟨t, ht, -, -, -, -, ht2, -⟩ := hp.tkhd
  obtain ⟨e, he, -, he2⟩ := hp.elst
  obtain ⟨m, hm, -, hm2, hm3, -⟩ := hp.mdhd
  obtain ⟨l1, l2⟩ := h.lasts
  refine ⟨t, e, m, ht, he, hm, by rw [ht2]; exact l1, by rw [hm2, hm3]; exact l2, ?_⟩
  rw [he2, ht2]; rfl

/-- **C59** In the file: every program that uses `SimpleWriter`, with durations in seconds (`d` for the movie, `ds` for its tracks), leaves
a `moov` that states these durations. -/
theorem C59_simple (os : OStream) (hos : os.data = []) (f : Ftyp) (ts d : BitVec 32) (dur now : BitVec 64) (calls : List Call)
    (hf : f.compatible_brands.length < 2 ^ 32) (hd : FiniteFloat d) (hs : d.msb = false) (hdur : durationIn ts d = some dur)
    (ds : List (BitVec 32)) (hlen : ds.length = (Spec.asked calls).length)
    (hds : ∀ (i : ℕ) a d, (Spec.asked calls)[i]? = some a → ds[i]? = some d → MadeFor ts d a) :
    ∃ s es, SimpleWriter.session os f ts dur now calls = .ok s ∧ Spec.Expands [] calls es ∧
      (Tree.totalList (Spec.simpleFile f (Spec.mdat es) (SimpleWriter.moovOf s)) < 2 ^ 64 →
       ∃ w moov b, SimpleWriter.finish s = .ok w ∧ w.os.data = Tree.encodeList (Spec.simpleFile f (Spec.mdat es) moov) ∧
        dataAt ["mvhd"] moov = some (.mvhd b) ∧ b.timescale = ts ∧ Lasts b.duration ts (floatValue d) ∧
        (traks moov).length = ds.length ∧
        ∀ (i : ℕ) d trak, ds[i]? = some d → (traks moov)[i]? = some trak → TrakLasts ts (floatValue d) trak) := by
  obtain ⟨s, es, h1, h2, h3⟩ := C58_simple os hos f ts dur now calls hf
  refine ⟨s, es, h1, h2, ?_⟩
  intro hfit
  obtain ⟨w, moov, h4, h5, h6, h7, h8⟩ := h3 hfit
  obtain ⟨b, hb, -, hb2, hb3, -⟩ := h6.mvhd
  refine ⟨w, moov, b, h4, h5, hb, hb2, by rw [hb3]; exact C59_error _ _ hd hs _ hdur, by rw [h7, hlen], ?_⟩
  intro i d trak hi ht
  have hlt : i < (Spec.asked calls).length := by rw [← hlen]; exact (List.getElem?_eq_some_iff.mp hi).1
  have ha := List.getElem?_eq_getElem hlt
  exact (hds i _ d ha hi).trak (h8 i _ trak ha ht)

/-- **C59** The same for `FaststartWriter`. -/
theorem C59_faststart (os : OStream) (hos : os.data = []) (f : Ftyp) (ts d : BitVec 32) (dur now : BitVec 64) (calls : List Call)
    (hf : f.compatible_brands.length < 2 ^ 32) (hd : FiniteFloat d) (hs : d.msb = false) (hdur : durationIn ts d = some dur)
    (ds : List (BitVec 32)) (hlen : ds.length = (Spec.asked calls).length)
    (hds : ∀ (i : ℕ) a d, (Spec.asked calls)[i]? = some a → ds[i]? = some d → MadeFor ts d a) :
    ∃ s es, FaststartWriter.session os f ts dur now calls = .ok s ∧ Spec.Expands [] calls es ∧
      (FaststartWriter.sizeBound s f (Spec.mdat es) < 2 ^ 63 →
       ∃ w moov b, FaststartWriter.finish s = .ok w ∧ w.os.data = Tree.encodeList (Spec.faststartFile f (Spec.mdat es) moov) ∧
        dataAt ["mvhd"] moov = some (.mvhd b) ∧ b.timescale = ts ∧ Lasts b.duration ts (floatValue d) ∧
        (traks moov).length = ds.length ∧
        ∀ (i : ℕ) d trak, ds[i]? = some d → (traks moov)[i]? = some trak → TrakLasts ts (floatValue d) trak) := by
  obtain ⟨s, es, h1, h2, h3⟩ := C58_faststart os hos f ts dur now calls hf
  refine ⟨s, es, h1, h2, ?_⟩
  intro hfit
  obtain ⟨w, moov, h4, h5, h6, h7, h8⟩ := h3 hfit
  obtain ⟨b, hb, -, hb2, hb3, -⟩ := h6.mvhd
  refine ⟨w, moov, b, h4, h5, hb, hb2, by rw [hb3]; exact C59_error _ _ hd hs _ hdur, by rw [h7, hlen], ?_⟩
  intro i d trak hi ht
  have hlt : i < (Spec.asked calls).length := by rw [← hlen]; exact (List.getElem?_eq_some_iff.mp hi).1
  have ha := List.getElem?_eq_getElem hlt
  exact (hds i _ d ha hi).trak (h8 i _ trak ha ht)

/-! ### Concrete cases -/

/-- 10.0f. -/
def tenSeconds : BitVec 32 := 0x41200000

theorem ten_finite : FiniteFloat tenSeconds := by unfold FiniteFloat floatExponent tenSeconds; decide +kernel

theorem ten_value : floatValue tenSeconds = 10 := by
  have h1 : floatExponent tenSeconds = 130 := by unfold floatExponent tenSeconds; decide +kernel
  have h2 : floatFraction tenSeconds = 2097152 := by unfold floatFraction tenSeconds; decide +kernel
  unfold floatValue
  rw [h1, h2]
  norm_num

/-- `C59_exact` on 10 seconds in units of 1/48000 s. -/
example : durationIn 48000 tenSeconds = some 480000 :=
  C59_exact 48000 tenSeconds ten_finite rfl 480000 (by decide +kernel) (by norm_num)
    (by rw [ten_value, show (48000 : BitVec 32).toNat = 48000 from rfl]; norm_num)

/-- A duration that is off: 10800.1f s (three hours) in units of 1/90000 s; the exact product is 972008964.84375. -/
example : durationIn 90000 0x4628c066 = some 972008960 := by decide +kernel

/-- A track made for 10 seconds. -/
example : TrackParameters.make 90000 tenSeconds 1000 5 0 1 (.vpx true 640 480 0 0) =
    some ⟨90000, 900000, 10000, 5, 0, 1⟩ := by decide +kernel

/-- The hypotheses about the tracks hold for a program with a video and an Opus track. -/
def tenProgram : List Call :=
  [.newTrack ⟨90000, 900000, 10000, 5, 0, 1⟩ (.vpx true 640 480 0 0), .newTrack ⟨48000, 480000, 10000, 5, 0, 2⟩ (.opus 312 0),
   .addData 0 0 [1, 2, 3] true, .addData 1 0 [4, 5] false]

theorem ten_made : ∀ (i : ℕ) a d, (Spec.asked tenProgram)[i]? = some a → [tenSeconds, tenSeconds][i]? = some d → MadeFor 1000 d a := by
  intro i a d h1 h2
  match i, h1, h2 with
  | 0, h1, h2 =>
    cases h2
    cases h1
    exact ⟨ten_finite, rfl, by decide +kernel⟩
  | 1, h1, h2 =>
    cases h2
    cases h1
    exact ⟨ten_finite, rfl, by decide +kernel⟩

end Mp4
