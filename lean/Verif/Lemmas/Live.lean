import Verif.Model.Live
import Verif.Lemmas.Reader
import Verif.Lemmas.MemoryReader

/-! # Lemmas about `LiveReader` -/

namespace Mp4
namespace LiveReader
open SimpleReader

variable (lr : LiveReader)

theorem canRead_iff (p n : Nat) : lr.canRead p n = true ↔ p + n ≤ lr.sr.data.length ∧ ∀ q, p ≤ q → q < p + n → lr.readable q = true := by
  rw [canRead, Bool.and_eq_true, decide_eq_true_iff, List.all_eq_true]
  constructor
  · rintro ⟨h1, h2⟩
    refine ⟨h1, fun q hq hq' => ?_⟩
    have := h2 (q - p) (List.mem_range.mpr (by omega))
    rwa [Nat.add_sub_cancel' hq] at this
  · rintro ⟨h1, h2⟩
    refine ⟨h1, fun k hk => h2 _ (by omega) ?_⟩
    have := List.mem_range.mp hk
    omega

theorem readHeader_ok {pos : Nat} {h : BoxHeader} (hr : lr.readHeader pos = .ok h) :
    read_box_header ⟨lr.sr.data, pos⟩ = .ok h ∧ lr.canRead pos h.headerSize = true := by
  rw [readHeader] at hr
  split at hr
  · cases hr
  · split at hr
    · cases hr
    · split at hr
      · cases hr
      · split at hr
        · cases hr
        · rename_i h' he hc
          cases hr
          exact ⟨he, by simpa using hc⟩

theorem readContent_ok {wave : Bool} {h : BoxHeader} {x : Box × Nat} (hr : lr.readContent wave h = .ok x) :
    lr.sr.readContent wave h = .ok x ∧ lr.canRead (h.offset + h.headerSize) h.getDataSize = true := by
  unfold readContent at hr
  split at hr
  · cases hr
  · split at hr
    · cases hr
    · rename_i hc
      exact ⟨hr, by simpa using hc⟩

theorem body_header_error {self : List BoxType → Bool → Nat → Option (Run (Nat × Tree × Nat))} {fuel : Nat}
    {path : List BoxType} {wave : Bool} {pos : Nat} {e : Err} (hh : lr.readHeader pos = .error e) :
    lr.readBoxBody self fuel path wave pos = some ⟨[], .error e⟩ := by
  rw [readBoxBody, hh, onHeader_error]

theorem body_content_error {self : List BoxType → Bool → Nat → Option (Run (Nat × Tree × Nat))} {fuel : Nat}
    {path : List BoxType} {wave : Bool} {pos : Nat} {h : BoxHeader} {e : Err}
    (hh : lr.readHeader pos = .ok h) (hc : lr.readContent wave h = .error e) :
    lr.readBoxBody self fuel path wave pos = some ⟨[h], .error e⟩ := by
  rw [readBoxBody, hh, onHeader_ok, hc]

/-- The end of the body, after the children have been read. -/
def wrap (h : BoxHeader) (b : Box) (path : List BoxType) : Option (Run (List Tree × Nat)) → Option (Run (Nat × Tree × Nat))
  | none => none
  | some ⟨vs, .error e⟩ => some ⟨h :: vs, .error e⟩
  | some ⟨vs, .ok (leafs, pos')⟩ => some ⟨h :: vs, .ok (h.size, .node b (path ++ [b.type]) leafs, pos')⟩

theorem body_ok {self : List BoxType → Bool → Nat → Option (Run (Nat × Tree × Nat))} {fuel : Nat}
    {path : List BoxType} {wave : Bool} {pos : Nat} {h : BoxHeader} {b : Box} {rbytes : Nat}
    (hh : lr.readHeader pos = .ok h) (hc : lr.readContent wave h = .ok (b, rbytes)) :
    lr.readBoxBody self fuel path wave pos =
      wrap h b path (readLoop (self (path ++ [b.type]) (b.type = fourcc "wave")) h.getDataSize fuel rbytes (h.offset + h.headerSize + rbytes)) := by
  rw [readBoxBody, hh, onHeader_ok, hc]
  rfl

theorem sr_body_ok (sr : SimpleReader) {self : List BoxType → Bool → Nat → Option (Run (Nat × Tree × Nat))} {fuel : Nat}
    {path : List BoxType} {wave : Bool} {pos : Nat} {h : BoxHeader} {b : Box} {rbytes : Nat}
    (hh : read_box_header ⟨sr.data, pos⟩ = .ok h) (hc : sr.readContent wave h = .ok (b, rbytes)) :
    sr.readBoxBody self fuel path wave pos =
      wrap h b path (readLoop (self (path ++ [b.type]) (b.type = fourcc "wave")) h.getDataSize fuel rbytes (h.offset + h.headerSize + rbytes)) := by
  rw [SimpleReader.body_ok sr hh hc]
  rfl

theorem readBox_succ (fuel : Nat) (path : List BoxType) (wave : Bool) (pos : Nat) :
    lr.readBox (fuel + 1) path wave pos = lr.readBoxBody (lr.readBox fuel) fuel path wave pos := rfl

/-- The loop, with its continuation in one place. -/
def glue (vs : List BoxHeader) (t : Tree) : Option (Run (List Tree × Nat)) → Option (Run (List Tree × Nat))
  | none => none
  | some ⟨ws, .error e⟩ => some ⟨vs ++ ws, .error e⟩
  | some ⟨ws, .ok (ts, pos)⟩ => some ⟨vs ++ ws, .ok (t :: ts, pos)⟩

theorem loop_done {rb : Nat → Option (Run (Nat × Tree × Nat))} {limit n done pos : Nat} (h : ¬ limit > done) :
    readLoop rb limit (n + 1) done pos = some ⟨[], .ok ([], pos)⟩ := by
  rw [readLoop, if_neg h]

theorem loop_none {rb : Nat → Option (Run (Nat × Tree × Nat))} {limit n done pos : Nat} (h : limit > done) (hr : rb pos = none) :
    readLoop rb limit (n + 1) done pos = none := by
  rw [readLoop, if_pos h, hr]

theorem loop_error {rb : Nat → Option (Run (Nat × Tree × Nat))} {limit n done pos : Nat} {vs : List BoxHeader} {e : Err} (h : limit > done)
    (hr : rb pos = some ⟨vs, .error e⟩) : readLoop rb limit (n + 1) done pos = some ⟨vs, .error e⟩ := by
  rw [readLoop, if_pos h, hr]

theorem loop_ok {rb : Nat → Option (Run (Nat × Tree × Nat))} {limit n done pos : Nat} {vs : List BoxHeader} {size : Nat} {t : Tree} {pos' : Nat}
    (h : limit > done) (hr : rb pos = some ⟨vs, .ok (size, t, pos')⟩) :
    readLoop rb limit (n + 1) done pos = glue vs t (readLoop rb limit n (u64 (done + size)) pos') := by
  rw [readLoop, if_pos h, hr]
  rfl

theorem glue_ok {vs : List BoxHeader} {t : Tree} {r : Option (Run (List Tree × Nat))} {us : List BoxHeader} {ts : List Tree} {p : Nat}
    (h : glue vs t r = some ⟨us, .ok (ts, p)⟩) : ∃ ws ts', r = some ⟨ws, .ok (ts', p)⟩ ∧ us = vs ++ ws ∧ ts = t :: ts' := by
  match r, h with
  | some ⟨ws, .ok (ts', q)⟩, h =>
    cases h
    exact ⟨ws, ts', rfl, rfl, rfl⟩

theorem wrap_ok {h : BoxHeader} {b : Box} {path : List BoxType} {r : Option (Run (List Tree × Nat))} {us : List BoxHeader} {x : Nat × Tree × Nat}
    (hw : wrap h b path r = some ⟨us, .ok x⟩) : ∃ vs leafs p, r = some ⟨vs, .ok (leafs, p)⟩ ∧ us = h :: vs ∧
      x = (h.size, .node b (path ++ [b.type]) leafs, p) := by
  match r, hw with
  | some ⟨vs, .ok (leafs, p)⟩, hw =>
    cases hw
    exact ⟨vs, leafs, p, rfl, rfl, rfl⟩

/-! ### What is read normally -/

theorem size_le_dataSize (h : BoxHeader) (hs : h.size < 2 ^ 64) : h.size ≤ h.headerSize + h.getDataSize := by
  rw [BoxHeader.getDataSize]
  by_cases hc : h.headerSize ≤ h.size
  · rw [sub64_eq hc hs]; omega
  · omega

/-- A box that the live reader reads normally is read in the same way when nothing has changed, and its bytes can be read. -/
theorem ok_same (hlen : lr.sr.data.length < 2 ^ 63) (fuel : Nat) :
    (∀ path wave pos vs x, lr.readBox fuel path wave pos = some ⟨vs, .ok x⟩ → lr.sr.readBox fuel path wave pos = some ⟨vs, .ok x⟩ ∧
      ∀ q, pos ≤ q → q < pos + x.1 → lr.readable q = true) ∧
    (∀ n path wave limit done pos vs x, readLoop (lr.readBox fuel path wave) limit n done pos = some ⟨vs, .ok x⟩ →
      readLoop (lr.sr.readBox fuel path wave) limit n done pos = some ⟨vs, .ok x⟩ ∧
      ∀ t ∈ x.1, ∃ h, t.box.header = some h ∧ ∀ q, h.offset ≤ q → q < h.offset + h.size → lr.readable q = true) := by
  have loop : ∀ fuel, (∀ path wave pos vs x, lr.readBox fuel path wave pos = some ⟨vs, .ok x⟩ →
      lr.sr.readBox fuel path wave pos = some ⟨vs, .ok x⟩ ∧ (∀ q, pos ≤ q → q < pos + x.1 → lr.readable q = true) ∧
        ∃ h, x.2.1.box.header = some h ∧ h.offset = pos ∧ h.size = x.1) →
      ∀ n path wave limit done pos vs x, readLoop (lr.readBox fuel path wave) limit n done pos = some ⟨vs, .ok x⟩ →
      readLoop (lr.sr.readBox fuel path wave) limit n done pos = some ⟨vs, .ok x⟩ ∧
      ∀ t ∈ x.1, ∃ h, t.box.header = some h ∧ ∀ q, h.offset ≤ q → q < h.offset + h.size → lr.readable q = true := by
    intro fuel ih n path wave limit
    induction n with
    | zero => intro _ _ _ _ h; rw [readLoop] at h; cases h
    | succ n ihn =>
      intro done pos vs x hr
      by_cases hlt : limit > done
      · cases hb : lr.readBox fuel path wave pos with
        | none => rw [loop_none hlt hb] at hr; cases hr
        | some r =>
          obtain ⟨us, r⟩ := r
          cases r with
          | error e => rw [loop_error hlt hb] at hr; cases hr
          | ok y =>
            obtain ⟨size, t, pos'⟩ := y
            obtain ⟨h1, h2, h3⟩ := ih _ _ _ _ _ hb
            rw [loop_ok hlt hb] at hr
            obtain ⟨ts, p⟩ := x
            obtain ⟨ws, ts', k1, rfl, rfl⟩ := glue_ok hr
            obtain ⟨k2, k3⟩ := ihn _ _ _ _ k1
            refine ⟨by rw [loop_ok hlt h1, k2]; rfl, fun t' ht' => ?_⟩
            rcases List.mem_cons.mp ht' with rfl | ht'
            · obtain ⟨h, e1, e2, e3⟩ := h3
              refine ⟨h, e1, ?_⟩
              rw [e2, e3]
              exact h2
            · exact k3 t' ht'
      · rw [loop_done hlt] at hr ⊢
        cases hr
        exact ⟨rfl, fun t ht => by cases ht⟩
  have key : ∀ path wave pos vs x, lr.readBox fuel path wave pos = some ⟨vs, .ok x⟩ →
      lr.sr.readBox fuel path wave pos = some ⟨vs, .ok x⟩ ∧ (∀ q, pos ≤ q → q < pos + x.1 → lr.readable q = true) ∧
        ∃ h, x.2.1.box.header = some h ∧ h.offset = pos ∧ h.size = x.1 := by
    induction fuel with
    | zero => intro _ _ _ _ _ h; rw [readBox] at h; cases h
    | succ fuel ih =>
      intro path wave pos vs x hr
      rw [readBox_succ] at hr
      cases hh : lr.readHeader pos with
      | error e => rw [lr.body_header_error hh] at hr; cases hr
      | ok h =>
        cases hc : lr.readContent wave h with
        | error e => rw [lr.body_content_error hh hc] at hr; cases hr
        | ok y =>
          obtain ⟨b, rbytes⟩ := y
          rw [lr.body_ok hh hc] at hr
          obtain ⟨us, leafs, p, k1, rfl, rfl⟩ := wrap_ok hr
          obtain ⟨hh1, hh2⟩ := lr.readHeader_ok hh
          obtain ⟨hc1, hc2⟩ := lr.readContent_ok hc
          have hl := loop fuel ih _ _ _ _ _ _ _ _ k1
          obtain ⟨ho, -, -, hs⟩ := read_box_header_ok _ _ _ (by omega) hh1
          refine ⟨?_, ?_, ⟨h, (lr.sr.readContent_ok hc1).2.1, ho, rfl⟩⟩
          · rw [SimpleReader.readBox_succ, sr_body_ok lr.sr hh1 hc1, hl.1]
            rfl
          · intro q hq hq'
            have r1 := ((lr.canRead_iff _ _).mp hh2).2
            have r2 := ((lr.canRead_iff _ _).mp hc2).2
            by_cases hlt : q < pos + h.headerSize
            · exact r1 q hq hlt
            · refine r2 q (by omega) ?_
              have := size_le_dataSize h hs
              have hq' : q < pos + h.size := hq'
              omega
  exact ⟨fun path wave pos vs x h => ⟨(key path wave pos vs x h).1, (key path wave pos vs x h).2.1⟩, loop fuel key⟩

/-! ### Unreadable bytes -/

/-- Some byte of the stream cannot be read. -/
def Defect : Prop := ∃ p, p < lr.sr.data.length ∧ lr.readable p = false

theorem defect_of_not_canRead {p n : Nat} (hl : p + n ≤ lr.sr.data.length) (h : lr.canRead p n = false) : lr.Defect := by
  by_cases hd : ∀ q, p ≤ q → q < p + n → lr.readable q = true
  · have := (lr.canRead_iff p n).mpr ⟨hl, hd⟩
    rw [h] at this
    cases this
  · simp only [Classical.not_forall] at hd
    obtain ⟨q, h1, h2, h3⟩ := hd
    exact ⟨q, by omega, by simpa using h3⟩

theorem header_small {d : List Byte} {pos : Nat} (h : sub64 d.length pos < SMALL_HEADER_SIZE) :
    read_box_header ⟨d, pos⟩ = .error (.exc "read_box_header(): stream has not enough data (1)") := by
  unfold read_box_header
  dsimp only
  rw [if_pos h]

theorem header_behind {d : List Byte} {pos : Nat} (h : ¬ sub64 d.length pos < SMALL_HEADER_SIZE) (hp : d.length < pos) :
    read_box_header ⟨d, pos⟩ = .error (.ub "copy_n past the end of the stream") := by
  unfold read_box_header
  dsimp only
  rw [if_neg h, if_pos hp]

theorem header_split (hlen : lr.sr.data.length < 2 ^ 63) (pos : Nat) :
    lr.readHeader pos = read_box_header ⟨lr.sr.data, pos⟩ ∨ (∃ w, lr.readHeader pos = .error (.ub w)) ∧ lr.Defect := by
  rw [readHeader]
  by_cases h8 : sub64 lr.sr.data.length pos < SMALL_HEADER_SIZE
  · rw [if_pos h8, header_small h8]
    exact .inl rfl
  · rw [if_neg h8]
    by_cases hc : lr.canRead pos 8 = false
    · rw [if_pos hc]
      by_cases hp : pos + 8 ≤ lr.sr.data.length
      · exact .inr ⟨⟨_, rfl⟩, lr.defect_of_not_canRead hp hc⟩
      · have hb : lr.sr.data.length < pos := by
          rcases Nat.lt_or_ge lr.sr.data.length pos with h | h
          · exact h
          · rw [sub64_eq h (by omega)] at h8
            exact absurd (show lr.sr.data.length - pos < 8 by omega) h8
        rw [header_behind h8 hb]
        exact .inl rfl
    · rw [if_neg hc]
      cases hh : read_box_header ⟨lr.sr.data, pos⟩ with
      | error e => exact .inl rfl
      | ok h =>
        dsimp only
        obtain ⟨-, -, hp, -⟩ := read_box_header_ok _ _ _ (by omega) hh
        by_cases hc' : lr.canRead pos h.headerSize = false
        · rw [if_pos hc']
          exact .inr ⟨⟨_, rfl⟩, lr.defect_of_not_canRead hp hc'⟩
        · rw [if_neg hc']
          exact .inl rfl

theorem content_split (hlen : lr.sr.data.length < 2 ^ 63) (ht : lr.total = lr.sr.data.length) {wave : Bool} {pos : Nat} {h : BoxHeader}
    (hh : read_box_header ⟨lr.sr.data, pos⟩ = .ok h) :
    lr.readContent wave h = lr.sr.readContent wave h ∨ (∃ w, lr.readContent wave h = .error (.ub w)) ∧ lr.Defect := by
  obtain ⟨ho, h8, hp, hs⟩ := read_box_header_ok _ _ _ (by omega) hh
  obtain ⟨hf, hds⟩ := fits_of_check hlen ho h8 hp hs
  unfold readContent
  rw [ht]
  rcases Mem.readContent_cases lr.sr wave h with ⟨h1, h2⟩ | ⟨h1, -⟩
  · rw [if_pos h1, h2]
    exact .inl rfl
  · rw [if_neg h1]
    have hf' := hf.mp h1
    have hds := hds hf'
    by_cases hc : lr.canRead (h.offset + h.headerSize) h.getDataSize = false
    · rw [if_pos hc]
      unfold Spec.Fits at hf'
      exact .inr ⟨⟨_, rfl⟩, lr.defect_of_not_canRead (by omega) hc⟩
    · rw [if_neg hc]
      exact .inl rfl

/-- The run ended undefined. -/
def Undef {α : Type} (r : Option (Run α)) : Prop := ∃ vs w, r = some ⟨vs, .error (.ub w)⟩

theorem Undef.wrap {r : Option (Run (List Tree × Nat))} (h : BoxHeader) (b : Box) (path : List BoxType) (hr : Undef r) :
    Undef (LiveReader.wrap h b path r) := by
  obtain ⟨vs, w, rfl⟩ := hr
  exact ⟨_, w, rfl⟩

theorem Undef.glue {r : Option (Run (List Tree × Nat))} (vs : List BoxHeader) (t : Tree) (hr : Undef r) : Undef (LiveReader.glue vs t r) := by
  obtain ⟨us, w, rfl⟩ := hr
  exact ⟨_, w, rfl⟩

theorem split_loop {rb sb : Nat → Option (Run (Nat × Tree × Nat))} {D : Prop} (ih : ∀ pos, rb pos = sb pos ∨ Undef (rb pos) ∧ D)
    (limit n : Nat) : ∀ done pos, readLoop rb limit n done pos = readLoop sb limit n done pos ∨ Undef (readLoop rb limit n done pos) ∧ D := by
  induction n with
  | zero => intro _ _; exact .inl rfl
  | succ n ihn =>
    intro done pos
    by_cases hlt : limit > done
    · rcases ih pos with hb | ⟨⟨vs, w, hb⟩, hd⟩
      · cases hq : sb pos with
        | none => rw [loop_none hlt (hb.trans hq), loop_none hlt hq]; exact .inl rfl
        | some r =>
          obtain ⟨us, r⟩ := r
          cases r with
          | error e => rw [loop_error hlt (hb.trans hq), loop_error hlt hq]; exact .inl rfl
          | ok y =>
            obtain ⟨size, t, pos'⟩ := y
            rw [loop_ok hlt (hb.trans hq), loop_ok hlt hq]
            rcases ihn (u64 (done + size)) pos' with h | ⟨h, hd⟩
            · rw [h]; exact .inl rfl
            · exact .inr ⟨h.glue _ _, hd⟩
      · rw [loop_error hlt hb]
        exact .inr ⟨⟨_, _, rfl⟩, hd⟩
    · rw [loop_done hlt, loop_done hlt]; exact .inl rfl

theorem split_body (hlen : lr.sr.data.length < 2 ^ 63) (ht : lr.total = lr.sr.data.length)
    {self self' : List BoxType → Bool → Nat → Option (Run (Nat × Tree × Nat))} (fuel : Nat)
    (ih : ∀ path wave pos, self path wave pos = self' path wave pos ∨ Undef (self path wave pos) ∧ lr.Defect) (path : List BoxType) (wave : Bool)
    (pos : Nat) : lr.readBoxBody self fuel path wave pos = lr.sr.readBoxBody self' fuel path wave pos ∨
      Undef (lr.readBoxBody self fuel path wave pos) ∧ lr.Defect := by
  rcases lr.header_split hlen pos with hh | ⟨⟨w, hh⟩, hd⟩
  · cases hq : read_box_header ⟨lr.sr.data, pos⟩ with
    | error e => left; exact (lr.body_header_error (hh.trans hq)).trans (lr.sr.body_header_error hq).symm
    | ok h =>
      rcases lr.content_split hlen ht (wave := wave) hq with hc | ⟨⟨w, hc⟩, hd⟩
      · cases hk : lr.sr.readContent wave h with
        | error e => left; exact (lr.body_content_error (hh.trans hq) (hc.trans hk)).trans (lr.sr.body_content_error hq hk).symm
        | ok y =>
          obtain ⟨b, rbytes⟩ := y
          have e1 := lr.body_ok (self := self) (fuel := fuel) (path := path) (hh.trans hq) (hc.trans hk)
          have e2 := sr_body_ok lr.sr (self := self') (fuel := fuel) (path := path) hq hk
          rw [e1, e2]
          rcases split_loop (ih (path ++ [b.type]) (b.type = fourcc "wave")) h.getDataSize fuel rbytes (h.offset + h.headerSize + rbytes) with
            h1 | ⟨h1, hd⟩
          · left; rw [h1]
          · exact .inr ⟨h1.wrap _ _ _, hd⟩
      · right
        exact ⟨⟨_, _, lr.body_content_error (hh.trans hq) hc⟩, hd⟩
  · right
    exact ⟨⟨_, _, lr.body_header_error hh⟩, hd⟩

/-- On a stream that has not changed, reading goes as ever or is undefined; the latter only when a byte cannot be read. -/
theorem split_all (hlen : lr.sr.data.length < 2 ^ 63) (ht : lr.total = lr.sr.data.length) (fuel : Nat) :
    ∀ path wave pos, lr.readBox fuel path wave pos = lr.sr.readBox fuel path wave pos ∨ Undef (lr.readBox fuel path wave pos) ∧ lr.Defect := by
  induction fuel with
  | zero => intro _ _ _; exact .inl rfl
  | succ fuel ih =>
    intro path wave pos
    exact lr.split_body hlen ht fuel ih path wave pos

/-! ### A stream that got shorter -/

theorem loop_inside (sr : SimpleReader) (hlen : sr.data.length < 2 ^ 63) (fuel n : Nat) (path : List BoxType) (wave : Bool) (limit : Nat)
    (hlim : limit < 2 ^ 63) : ∀ done pos vs x, readLoop (sr.readBox fuel path wave) limit n done pos = some ⟨vs, .ok x⟩ → done < limit →
      pos + (limit - done) ≤ sr.data.length := by
  induction n with
  | zero => intro _ _ _ _ h; rw [readLoop] at h; cases h
  | succ n ih =>
    intro done pos vs x hr hlt
    cases hb : sr.readBox fuel path wave pos with
    | none => rw [loop_none hlt hb] at hr; cases hr
    | some r =>
      obtain ⟨us, r⟩ := r
      cases r with
      | error e => rw [loop_error hlt hb] at hr; cases hr
      | ok y =>
        obtain ⟨size, t, pos'⟩ := y
        rw [loop_ok hlt hb] at hr
        obtain ⟨ts, p⟩ := x
        obtain ⟨ws, ts', k1, rfl, rfl⟩ := glue_ok hr
        obtain ⟨-, k⟩ := (SimpleReader.good sr hlen fuel).1 _ _ _ _ hb
        obtain ⟨-, -, -, -, k7, k8, -⟩ := k
        have hu : u64 (done + size) = done + size := Nat.mod_eq_of_lt (by omega)
        rw [hu] at k1
        by_cases hc : done + size < limit
        · have := ih _ _ _ _ k1 hc
          omega
        · omega

/-! ### A stream that got longer -/

theorem slice_take {d : List Byte} {t p n : Nat} (h : p + n ≤ t) : slice (d.take t) p n = slice d p n := by
  simp only [slice, List.drop_take, List.take_take]
  congr 1
  omega

theorem header_grown {d : List Byte} {t pos : Nat} (ht : t < d.length) (hlen : d.length < 2 ^ 63) {h : BoxHeader}
    (hh : read_box_header ⟨d.take t, pos⟩ = .ok h) :
    (h.extendToEof = false ∧ read_box_header ⟨d, pos⟩ = .ok h) ∨
    (h.extendToEof = true ∧ h.headerSize = 8 ∧ read_box_header ⟨d, pos⟩ = .ok { h with size := d.length - pos }) := by
  have hlt : (d.take t).length = t := by rw [List.length_take]; omega
  obtain ⟨ho, h8, hp, hs⟩ := read_box_header_ok _ _ _ (by omega) hh
  rw [hlt] at hp
  unfold read_box_header at hh ⊢
  dsimp only at hh ⊢
  rw [hlt] at hh
  have e1 : sub64 t pos = t - pos := sub64_eq (by omega) (by omega)
  have e2 : sub64 d.length pos = d.length - pos := sub64_eq (by omega) (by omega)
  rw [e1] at hh
  rw [e2]
  have hS : SMALL_HEADER_SIZE = 8 := rfl
  have hL : LARGE_HEADER_SIZE = 16 := rfl
  rw [hS, hL] at hh
  rw [hS, hL]
  rw [if_neg (by omega), if_neg (by omega)] at hh
  rw [if_neg (by omega), if_neg (by omega)]
  rw [List.drop_take] at hh
  generalize hdd : d.drop pos = dd at hh ⊢
  have hn : 8 ≤ t - pos := by omega
  generalize t - pos = m at hh hn
  match dd, hh with
  | a :: b :: c :: d' :: t0 :: t1 :: t2 :: t3 :: more, hh =>
    obtain ⟨m, rfl⟩ : ∃ k, m = k + 8 := ⟨m - 8, by omega⟩
    simp only [List.take_succ_cons] at hh
    dsimp only at hh ⊢
    by_cases h0 : (be_to_uint32 a b c d').toNat = 0
    · rw [if_pos h0] at hh ⊢
      cases hh
      exact .inr ⟨rfl, rfl, rfl⟩
    rw [if_neg h0] at hh ⊢
    by_cases h1 : (be_to_uint32 a b c d').toNat = 1
    · rw [if_pos h1] at hh ⊢
      by_cases h16 : m + 8 < 16
      · rw [if_pos h16] at hh; cases hh
      rw [if_neg h16] at hh
      obtain ⟨m, rfl⟩ : ∃ k, m = k + 8 := ⟨m - 8, by omega⟩
      have hlenD := congrArg List.length hdd
      simp only [List.length_drop, List.length_cons] at hlenD
      match more, hh with
      | x0 :: x1 :: x2 :: x3 :: x4 :: x5 :: x6 :: x7 :: more, hh =>
        simp only [List.take_succ_cons] at hh
        cases hh
        simp only [List.length_cons] at hlenD
        rw [if_neg (by omega)]
        exact .inl ⟨rfl, rfl⟩
      | [], hh => simp at hh
      | [_], hh => simp at hh
      | [_, _], hh => simp at hh
      | [_, _, _], hh => simp at hh
      | [_, _, _, _], hh => simp at hh
      | [_, _, _, _, _], hh => simp at hh
      | [_, _, _, _, _, _], hh => simp at hh
      | [_, _, _, _, _, _, _], hh => simp at hh
    · rw [if_neg h1] at hh ⊢
      cases hh
      exact .inl ⟨rfl, rfl⟩
  | [], hh => simp at hh
  | [_], hh => revert hh; rcases m with _|_|_ <;> simp
  | [_, _], hh => revert hh; rcases m with _|_|_|_ <;> simp
  | [_, _, _], hh => revert hh; rcases m with _|_|_|_|_ <;> simp
  | [_, _, _, _], hh => revert hh; rcases m with _|_|_|_|_|_ <;> simp
  | [_, _, _, _, _], hh => revert hh; rcases m with _|_|_|_|_|_|_ <;> simp
  | [_, _, _, _, _, _], hh => revert hh; rcases m with _|_|_|_|_|_|_|_ <;> simp
  | [_, _, _, _, _, _, _], hh => revert hh; rcases m with _|_|_|_|_|_|_|_|_ <;> simp

/-- The reader at the time of the constructor, when the stream held its first `total` bytes. -/
def before : SimpleReader := { lr.sr with data := lr.sr.data.take lr.total }

theorem content_grown (hlen : lr.sr.data.length < 2 ^ 63) (ht : lr.total < lr.sr.data.length) (hr : ∀ p, lr.readable p = true) {wave : Bool}
    {pos : Nat} {h : BoxHeader} {x : Box × Nat} (hh : read_box_header ⟨lr.sr.data.take lr.total, pos⟩ = .ok h)
    (hc : lr.before.readContent wave h = .ok x) : lr.readContent wave h = .ok x := by
  have hlt : (lr.sr.data.take lr.total).length = lr.total := by rw [List.length_take]; omega
  obtain ⟨ho, h8, hp, hs⟩ := read_box_header_ok _ _ _ (by omega) hh
  rw [hlt] at hp
  obtain ⟨hf, hds⟩ := fits_of_check (len := lr.total) (by omega) ho h8 hp hs
  obtain ⟨hg, -, -⟩ := lr.before.readContent_ok hc
  have hbl : lr.before.data.length = lr.total := hlt
  rw [hbl] at hg
  have hfit := hf.mp hg
  have hds := hds hfit
  unfold Spec.Fits at hfit
  have hfit' : Spec.Fits lr.sr.data.length h := ⟨hfit.1, by omega⟩
  have hg' := (fits_of_check (len := lr.sr.data.length) hlen ho h8 (by omega) hs).1.mpr hfit'
  have hcan : lr.canRead (h.offset + h.headerSize) h.getDataSize = true := (lr.canRead_iff _ _).mpr ⟨by omega, fun q _ _ => hr q⟩
  unfold readContent
  rw [if_neg hg, if_neg (by rw [hcan]; decide)]
  have hslice : slice lr.before.data (h.offset + h.headerSize) h.getDataSize = slice lr.sr.data (h.offset + h.headerSize) h.getDataSize :=
    slice_take (by omega)
  have hcls : lr.before.classOf h.type = lr.sr.classOf h.type := rfl
  have henv : lr.before.env h.offset = lr.sr.env h.offset := rfl
  rcases Mem.readContent_cases lr.before wave h with ⟨h1, h2⟩ | ⟨-, ⟨e, -, h2⟩ | ⟨rbits, data, rd, h3, h4⟩⟩
  · rw [hc] at h2; cases h2
  · rw [hc] at h2; cases h2
  · rw [hslice, hcls, henv] at h3
    rcases h4 with ⟨-, h4⟩ | ⟨h5, h4⟩
    · rw [hc] at h4; cases h4
    · rw [hc] at h4
      cases h4
      rcases Mem.readContent_cases lr.sr wave h with ⟨k1, -⟩ | ⟨-, ⟨e, k2, -⟩ | ⟨rbits', data', rd', k3, k4⟩⟩
      · exact absurd k1 hg'
      · rw [h3] at k2; cases k2
      · rw [h3] at k3
        cases k3
        rcases k4 with ⟨⟨k5, k6⟩, -⟩ | ⟨-, k4⟩
        · refine absurd ⟨k5, ?_⟩ h5
          rw [hbl]
          omega
        · rw [k4, hcls]

/-- The run on the longer stream is the same, or there is a box that extends to the end of the file and the run ends with an exception. -/
def Grown {α : Type} (r0 r : Option (Run α)) : Prop := ∀ vs x, r0 = some ⟨vs, .ok x⟩ →
  ((∀ h ∈ vs, h.extendToEof = false) ∧ r = some ⟨vs, .ok x⟩) ∨
  ((∃ h ∈ vs, h.extendToEof = true) ∧ ∃ us w, r = some ⟨us, .error (.exc w)⟩)

theorem grown_loop {rb sb : Nat → Option (Run (Nat × Tree × Nat))} (ih : ∀ pos, Grown (sb pos) (rb pos)) (limit n : Nat) :
    ∀ done pos, Grown (readLoop sb limit n done pos) (readLoop rb limit n done pos) := by
  induction n with
  | zero => intro _ _ vs x h; rw [readLoop] at h; cases h
  | succ n ihn =>
    intro done pos vs x h
    by_cases hlt : limit > done
    · cases hb : sb pos with
      | none => rw [loop_none hlt hb] at h; cases h
      | some r =>
        obtain ⟨us, r⟩ := r
        cases r with
        | error e => rw [loop_error hlt hb] at h; cases h
        | ok y =>
          obtain ⟨size, t, pos'⟩ := y
          rw [loop_ok hlt hb] at h
          obtain ⟨ts, p⟩ := x
          obtain ⟨ws, ts', k1, rfl, rfl⟩ := glue_ok h
          rcases ih pos _ _ hb with ⟨h1, h2⟩ | ⟨⟨e, h1, h1'⟩, us', w, h2⟩
          · rw [loop_ok hlt h2]
            rcases ihn _ _ _ _ k1 with ⟨q1, q2⟩ | ⟨⟨e, q1, q1'⟩, us', w, q2⟩
            · rw [q2]
              refine .inl ⟨fun x hx => ?_, rfl⟩
              rcases List.mem_append.mp hx with hx | hx
              · exact h1 x hx
              · exact q1 x hx
            · rw [q2]
              exact .inr ⟨⟨e, List.mem_append_right _ q1, q1'⟩, _, w, rfl⟩
          · rw [loop_error hlt h2]
            exact .inr ⟨⟨e, List.mem_append_left _ h1, h1'⟩, _, w, rfl⟩
    · rw [loop_done hlt] at h ⊢
      cases h
      exact .inl ⟨fun x hx => (by cases hx), rfl⟩

theorem header_live (hlen : lr.sr.data.length < 2 ^ 63) (hr : ∀ p, lr.readable p = true) (pos : Nat) :
    lr.readHeader pos = read_box_header ⟨lr.sr.data, pos⟩ := by
  rcases lr.header_split hlen pos with h | ⟨-, p, -, h⟩
  · exact h
  · rw [hr] at h; cases h

theorem grown_body (hlen : lr.sr.data.length < 2 ^ 63) (ht : lr.total < lr.sr.data.length) (hr : ∀ p, lr.readable p = true)
    {self self0 : List BoxType → Bool → Nat → Option (Run (Nat × Tree × Nat))} (fuel : Nat)
    (ih : ∀ path wave pos, Grown (self0 path wave pos) (self path wave pos)) (path : List BoxType) (wave : Bool) (pos : Nat) :
    Grown (lr.before.readBoxBody self0 fuel path wave pos) (lr.readBoxBody self fuel path wave pos) := by
  intro vs x h
  cases hq : read_box_header ⟨lr.before.data, pos⟩ with
  | error e => rw [lr.before.body_header_error hq] at h; cases h
  | ok hd =>
    cases hk : lr.before.readContent wave hd with
    | error e => rw [lr.before.body_content_error hq hk] at h; cases h
    | ok y =>
      obtain ⟨b, rbytes⟩ := y
      have e2 := sr_body_ok lr.before (self := self0) (fuel := fuel) (path := path) hq hk
      rw [e2] at h
      obtain ⟨us, leafs, p, k1, rfl, rfl⟩ := wrap_ok h
      rcases header_grown ht hlen hq with ⟨g1, g2⟩ | ⟨g1, g2, g3⟩
      · have hc := lr.content_grown hlen ht hr hq hk
        have hh := (lr.header_live hlen hr pos).trans g2
        have e1 := lr.body_ok (self := self) (fuel := fuel) (path := path) hh hc
        rw [e1]
        rcases grown_loop (ih (path ++ [b.type]) (b.type = fourcc "wave")) hd.getDataSize fuel rbytes (hd.offset + hd.headerSize + rbytes) _ _ k1 with
          ⟨q1, q2⟩ | ⟨⟨e, q1, q1'⟩, us', w, q2⟩
        · rw [q2]
          refine .inl ⟨fun z hz => ?_, rfl⟩
          rcases List.mem_cons.mp hz with rfl | hz
          · exact g1
          · exact q1 z hz
        · rw [q2]
          exact .inr ⟨⟨e, List.mem_cons_of_mem _ q1, q1'⟩, _, w, rfl⟩
      · right
        refine ⟨⟨hd, List.mem_cons_self, g1⟩, ?_⟩
        have hh := (lr.header_live hlen hr pos).trans g3
        have hlt : (lr.sr.data.take lr.total).length = lr.total := by rw [List.length_take]; omega
        obtain ⟨ho, -, hp, -⟩ := read_box_header_ok _ _ _ (by
          show (lr.sr.data.take lr.total).length < _
          omega) hq
        have hp : pos + hd.headerSize ≤ lr.total := by rw [← hlt]; exact hp
        have hc : lr.readContent wave { hd with size := lr.sr.data.length - pos } =
            .error (.exc "corrupt file? box data size is greater than remaining_size") := by
          unfold readContent
          rw [if_pos]
          show sub64 (lr.sr.data.length - pos) hd.headerSize > sub64 (sub64 lr.total hd.offset) hd.headerSize
          rw [sub64_eq (a := lr.total) (by omega) (by omega), sub64_eq (by omega) (by omega), sub64_eq (by omega) (by omega)]
          omega
        exact ⟨_, _, lr.body_content_error hh hc⟩

theorem grown_all (hlen : lr.sr.data.length < 2 ^ 63) (ht : lr.total < lr.sr.data.length) (hr : ∀ p, lr.readable p = true) (fuel : Nat) :
    ∀ path wave pos, Grown (lr.before.readBox fuel path wave pos) (lr.readBox fuel path wave pos) := by
  induction fuel with
  | zero => intro _ _ _ vs x h; rw [SimpleReader.readBox] at h; cases h
  | succ fuel ih =>
    intro path wave pos
    exact lr.grown_body hlen ht hr fuel ih path wave pos

/-! ### The bound on the recursion is not reached -/

theorem glue_none {vs : List BoxHeader} {t : Tree} {r : Option (Run (List Tree × Nat))} (h : glue vs t r = none) : r = none := by
  match r, h with
  | none, _ => rfl
  | some ⟨ws, .ok (ts', q)⟩, h => cases h
  | some ⟨ws, .error e⟩, h => cases h

theorem wrap_none {hd : BoxHeader} {b : Box} {path : List BoxType} {r : Option (Run (List Tree × Nat))} (h : wrap hd b path r = none) : r = none := by
  match r, h with
  | none, _ => rfl
  | some ⟨ws, .ok (ts', q)⟩, h => cases h
  | some ⟨ws, .error e⟩, h => cases h

theorem none_loop {rb sb : Nat → Option (Run (Nat × Tree × Nat))} (ih : ∀ pos, rb pos = none → sb pos = none)
    (hok : ∀ pos vs x, rb pos = some ⟨vs, .ok x⟩ → sb pos = some ⟨vs, .ok x⟩) (limit n : Nat) :
    ∀ done pos, readLoop rb limit n done pos = none → readLoop sb limit n done pos = none := by
  induction n with
  | zero => intro _ _ _; rfl
  | succ n ihn =>
    intro done pos h
    by_cases hlt : limit > done
    · cases hb : rb pos with
      | none => exact loop_none hlt (ih _ hb)
      | some r =>
        obtain ⟨us, r⟩ := r
        cases r with
        | error e => rw [loop_error hlt hb] at h; cases h
        | ok y =>
          obtain ⟨size, t, pos'⟩ := y
          rw [loop_ok hlt hb] at h
          rw [loop_ok hlt (hok _ _ _ hb), ihn _ _ (glue_none h)]
          rfl
    · rw [loop_done hlt] at h; cases h

theorem none_body {self self0 : List BoxType → Bool → Nat → Option (Run (Nat × Tree × Nat))} (fuel : Nat)
    (ih : ∀ path wave pos, self path wave pos = none → self0 path wave pos = none)
    (hok : ∀ path wave pos vs x, self path wave pos = some ⟨vs, .ok x⟩ → self0 path wave pos = some ⟨vs, .ok x⟩)
    (path : List BoxType) (wave : Bool) (pos : Nat) (h : lr.readBoxBody self fuel path wave pos = none) :
    lr.sr.readBoxBody self0 fuel path wave pos = none := by
  cases hh : lr.readHeader pos with
  | error e => rw [lr.body_header_error hh] at h; cases h
  | ok hd =>
    cases hc : lr.readContent wave hd with
    | error e => rw [lr.body_content_error hh hc] at h; cases h
    | ok y =>
      obtain ⟨b, rbytes⟩ := y
      have e1 := lr.body_ok (self := self) (fuel := fuel) (path := path) hh hc
      have e2 := sr_body_ok lr.sr (self := self0) (fuel := fuel) (path := path) (lr.readHeader_ok hh).1 (lr.readContent_ok hc).1
      rw [e1] at h
      rw [e2, none_loop (ih _ _) (hok _ _) _ _ _ _ (wrap_none h)]
      rfl

theorem none_all (hlen : lr.sr.data.length < 2 ^ 63) (fuel : Nat) :
    ∀ path wave pos, lr.readBox fuel path wave pos = none → lr.sr.readBox fuel path wave pos = none := by
  induction fuel with
  | zero => intro _ _ _ _; rfl
  | succ fuel ih =>
    intro path wave pos h
    exact lr.none_body fuel ih (fun path wave pos vs x h => ((lr.ok_same hlen fuel).1 path wave pos vs x h).1) path wave pos h

theorem loop_enough (sr : SimpleReader) (hlen : sr.data.length < 2 ^ 63) (fuel : Nat) (path : List BoxType) (wave : Bool) (limit n : Nat) :
    ∀ done pos, sr.data.length - pos + 2 ≤ n → sr.data.length - pos + 1 ≤ fuel → readLoop (sr.readBox fuel path wave) limit n done pos ≠ none := by
  induction n with
  | zero => intro _ _ h; omega
  | succ n ihn =>
    intro done pos hn hf
    by_cases hlt : limit > done
    · cases hb : sr.readBox fuel path wave pos with
      | none => exact absurd hb ((SimpleReader.enough sr hlen fuel).1 path wave pos hf)
      | some r =>
        obtain ⟨us, r⟩ := r
        cases r with
        | error e => rw [loop_error hlt hb]; simp
        | ok y =>
          obtain ⟨size, t, pos'⟩ := y
          obtain ⟨-, k1, k2, k3, ⟨hd, k4, -, -⟩, -⟩ := (SimpleReader.good sr hlen fuel).1 _ _ _ _ hb
          have hpos : pos + 8 ≤ sr.data.length := by
            have hm : hd ∈ us := by
              have k3 : us = t.headers := k3
              rw [k3]
              obtain ⟨b, p, ls⟩ := t
              rw [Tree.headers]
              exact List.mem_append.mpr (.inl (by rw [show b.header = some hd from k4]; simp))
            cases us with
            | nil => cases hm
            | cons x us =>
              have k1 : Spec.Chain sr.data.length pos (x :: us) pos' := k1
              have := k1.1; have := k1.2.2.1; rcases k1.2.1 with h | h <;> omega
          have k2 : pos + 8 ≤ pos' := k2
          rw [loop_ok hlt hb]
          intro hg
          exact ihn (u64 (done + size)) pos' (by omega) (by omega) (glue_none hg)
    · rw [loop_done hlt]; simp

end LiveReader
end Mp4
