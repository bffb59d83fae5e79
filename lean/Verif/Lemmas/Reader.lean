import Verif.Spec.Reader
import Verif.Props.Header
import Verif.BitIO.ProgLemmas

/-! # Lemmas about `SimpleReader` -/

namespace Mp4

theorem read_box_header_ok (d : List Byte) (pos : Nat) (h : BoxHeader) (hl : d.length < 2 ^ 64)
    (hr : read_box_header ⟨d, pos⟩ = .ok h) :
    h.offset = pos ∧ (h.headerSize = 8 ∨ h.headerSize = 16) ∧ pos + h.headerSize ≤ d.length ∧ h.size < 2 ^ 64 := by
  unfold read_box_header at hr
  dsimp only at hr
  by_cases h8 : sub64 d.length pos < SMALL_HEADER_SIZE
  · rw [if_pos h8] at hr; cases hr
  rw [if_neg h8] at hr
  by_cases hle : d.length < pos
  · rw [if_pos hle] at hr; cases hr
  rw [if_neg hle] at hr
  have hs : sub64 d.length pos = d.length - pos := sub64_eq (by omega) hl
  rw [hs] at h8 hr
  have h8' : 8 ≤ d.length - pos := Nat.not_lt.mp h8
  generalize d.drop pos = dd at hr
  match dd, hr with
  | a :: b :: c :: d' :: t0 :: t1 :: t2 :: t3 :: more, hr =>
    dsimp only at hr
    by_cases h0 : (be_to_uint32 a b c d').toNat = 0
    · rw [if_pos h0] at hr
      cases hr
      exact ⟨rfl, .inl rfl, by show pos + 8 ≤ _; omega, by show d.length - pos < _; omega⟩
    rw [if_neg h0] at hr
    by_cases h1 : (be_to_uint32 a b c d').toNat = 1
    · rw [if_pos h1] at hr
      by_cases h16 : d.length - pos < LARGE_HEADER_SIZE
      · rw [if_pos h16] at hr; cases hr
      rw [if_neg h16] at hr
      have h16' : 16 ≤ d.length - pos := Nat.not_lt.mp h16
      split at hr
      · cases hr
        exact ⟨rfl, .inr rfl, by show pos + 16 ≤ _; omega, BitVec.isLt _⟩
      · cases hr
    · rw [if_neg h1] at hr
      cases hr
      exact ⟨rfl, .inl rfl, by show pos + 8 ≤ _; omega, Nat.lt_trans (BitVec.isLt _) (by decide)⟩
  | [], hr => cases hr
  | [_], hr => cases hr
  | [_, _], hr => cases hr
  | [_, _, _], hr => cases hr
  | [_, _, _, _], hr => cases hr
  | [_, _, _, _, _], hr => cases hr
  | [_, _, _, _, _, _], hr => cases hr
  | [_, _, _, _, _, _, _], hr => cases hr

namespace Spec

/-- `InOrder`, also ending before `e`. -/
def Chain (len : Nat) : Nat → List BoxHeader → Nat → Prop
  | pos, [], e => pos ≤ e
  | pos, h :: hs, e => pos ≤ h.offset ∧ (h.headerSize = 8 ∨ h.headerSize = 16) ∧ h.offset + h.headerSize ≤ len ∧
      Chain len (h.offset + h.headerSize) hs e

theorem Chain.inOrder {len pos e : Nat} {vs : List BoxHeader} (h : Chain len pos vs e) : InOrder len pos vs := by
  induction vs generalizing pos with
  | nil => trivial
  | cons x vs ih => exact ⟨h.1, h.2.1, h.2.2.1, ih h.2.2.2⟩

theorem Chain.append {len pos m e : Nat} {vs ws : List BoxHeader} (h : Chain len pos vs m) (k : Chain len m ws e) :
    Chain len pos (vs ++ ws) e := by
  induction vs generalizing pos with
  | nil =>
    cases ws with
    | nil => exact Nat.le_trans h k
    | cons w ws => exact ⟨Nat.le_trans h k.1, k.2⟩
  | cons x vs ih => exact ⟨h.1, h.2.1, h.2.2.1, ih h.2.2.2⟩

theorem Chain.le {len pos e : Nat} {vs : List BoxHeader} (h : Chain len pos vs e) : pos ≤ e := by
  induction vs generalizing pos with
  | nil => exact h
  | cons x vs ih => have := ih h.2.2.2; have := h.1; omega

theorem Chain.relax {len pos e : Nat} {vs : List BoxHeader} (h : Chain len pos vs e) : ∃ e', Chain len pos vs e' ∧ e ≤ e' :=
  ⟨e, h, Nat.le_refl _⟩

theorem InOrder.count {len pos : Nat} {vs : List BoxHeader} (h : InOrder len pos vs) : vs = [] ∨ pos + 8 * vs.length ≤ len := by
  induction vs generalizing pos with
  | nil => exact .inl rfl
  | cons x vs ih =>
    right
    have h1 := h.1
    have h3 := h.2.2.1
    rcases ih h.2.2.2 with e | e
    · subst e; simp; rcases h.2.1 with h | h <;> omega
    · simp; rcases h.2.1 with h | h <;> omega

end Spec

attribute [local irreducible] BoxData.readData fourcc R.runC slice read_box_header

namespace SimpleReader
variable (sr : SimpleReader)

/-- Verdict on an execution: every header visited fits, or it is the last one and the execution ended with an exception. -/
def Judged {α : Type} (len : Nat) (r : Run α) : Prop :=
  match r.res with
  | .ok _ => ∀ h ∈ r.visits, Spec.Fits len h
  | .error e => ∀ h ∈ r.visits, ¬ Spec.Fits len h → (∃ w, e = .exc w) ∧ r.visits.getLast? = some h

theorem not_fits_imp {len : Nat} {e : Err} {h : BoxHeader} (hf : Spec.Fits len h) {vs : List BoxHeader}
    (hv : ∀ x ∈ vs, ¬ Spec.Fits len x → (∃ w, e = .exc w) ∧ vs.getLast? = some x) :
    ∀ x ∈ h :: vs, ¬ Spec.Fits len x → (∃ w, e = .exc w) ∧ (h :: vs).getLast? = some x := by
  intro x hx hn
  rcases List.mem_cons.mp hx with rfl | hx
  · exact absurd hf hn
  · obtain ⟨h1, h2⟩ := hv x hx hn
    refine ⟨h1, ?_⟩
    cases vs with
    | nil => cases hx
    | cons y ys => rw [List.getLast?_cons_cons]; exact h2

theorem not_fits_append {len : Nat} {e : Err} {us vs : List BoxHeader} (hf : ∀ x ∈ us, Spec.Fits len x)
    (hv : ∀ x ∈ vs, ¬ Spec.Fits len x → (∃ w, e = .exc w) ∧ vs.getLast? = some x) :
    ∀ x ∈ us ++ vs, ¬ Spec.Fits len x → (∃ w, e = .exc w) ∧ (us ++ vs).getLast? = some x := by
  intro x hx hn
  rcases List.mem_append.mp hx with hx | hx
  · exact absurd (hf x hx) hn
  · obtain ⟨h1, h2⟩ := hv x hx hn
    refine ⟨h1, ?_⟩
    rw [List.getLast?_append, h2]
    rfl

/-- What one `readBox` is known to do. -/
def BoxGood (pos : Nat) (r : Run (Nat × Tree × Nat)) : Prop :=
  Judged sr.data.length r ∧
  match r.res with
  | .error _ => Spec.InOrder sr.data.length pos r.visits
  | .ok (size, t, e) => Spec.Chain sr.data.length pos r.visits e ∧ pos + 8 ≤ e ∧ r.visits = t.headers ∧
      (∃ h, t.box.header = some h ∧ h.size = size ∧ h.offset = pos) ∧
      pos + size ≤ sr.data.length ∧ pos + size ≤ e ∧
      (e = pos + size ∨ pos + size = sr.data.length → t.Tiled pos (pos + size))

def LoopGood (limit done pos : Nat) (r : Run (List Tree × Nat)) : Prop :=
  Judged sr.data.length r ∧
  match r.res with
  | .error _ => Spec.InOrder sr.data.length pos r.visits
  | .ok (ts, e) => Spec.Chain sr.data.length pos r.visits e ∧ r.visits = Tree.headersList ts ∧
      (limit ≤ done → ts = []) ∧
      (done ≤ limit → pos + (limit - done) ≤ e) ∧
      (done < limit → pos + (limit - done) ≤ sr.data.length) ∧
      (done ≤ limit → e = pos + (limit - done) ∨ pos + (limit - done) = sr.data.length →
        Tree.TiledList ts pos (pos + (limit - done)))

theorem InOrder.of_chain_append {len pos m : Nat} {vs ws : List BoxHeader} (h : Spec.Chain len pos vs m)
    (k : Spec.InOrder len m ws) : Spec.InOrder len pos (vs ++ ws) := by
  induction vs generalizing pos with
  | nil =>
    cases ws with
    | nil => trivial
    | cons w ws => exact ⟨Nat.le_trans h k.1, k.2⟩
  | cons x vs ih => exact ⟨h.1, h.2.1, h.2.2.1, ih h.2.2.2⟩

/-- The facts about the header of a box that passes the size check. -/
theorem fits_of_check {len pos : Nat} {h : BoxHeader} (hl : len < 2 ^ 63) (ho : h.offset = pos)
    (h8 : h.headerSize = 8 ∨ h.headerSize = 16) (hp : pos + h.headerSize ≤ len) (hs : h.size < 2 ^ 64) :
    (¬ h.getDataSize > sub64 (sub64 len h.offset) h.headerSize ↔ Spec.Fits len h) ∧
    (Spec.Fits len h → h.getDataSize = h.size - h.headerSize) := by
  have e1 : sub64 len h.offset = len - h.offset := sub64_eq (by omega) (by omega)
  rw [e1, sub64_eq (by omega) (by omega), Spec.Fits, BoxHeader.getDataSize]
  by_cases hc : h.headerSize ≤ h.size
  · rw [sub64_eq hc hs]
    omega
  · have : sub64 h.size h.headerSize = h.size + 2 ^ 64 - h.headerSize := by
      simp only [sub64]; omega
    rw [this]
    omega

theorem readBox_succ (fuel : Nat) (path : List BoxType) (wave : Bool) (pos : Nat) :
    sr.readBox (fuel + 1) path wave pos = sr.readBoxBody (sr.readBox fuel) fuel path wave pos := rfl

theorem onHeader_error {α : Type} (e : Err) (k : BoxHeader → Option (Run α)) :
    onHeader (.error e) k = some ⟨[], .error e⟩ := rfl

theorem onHeader_ok {α : Type} (h : BoxHeader) (k : BoxHeader → Option (Run α)) : onHeader (.ok h) k = k h := rfl

theorem readContent_ok {wave : Bool} {h : BoxHeader} {x : Box × Nat} (hc : sr.readContent wave h = .ok x) :
    ¬ h.getDataSize > sub64 (sub64 sr.data.length h.offset) h.headerSize ∧ x.1.header = some h ∧
      (sr.file = false → h.offset + h.headerSize + x.2 ≤ sr.data.length) := by
  rw [readContent] at hc
  dsimp only at hc
  split at hc
  · cases hc
  · rename_i hg
    refine ⟨hg, ?_⟩
    split at hc
    · cases hc
    · split at hc
      · cases hc
      · rename_i hn
        cases hc
        exact ⟨rfl, fun hf => by
          by_cases hlt : sr.data.length < h.offset + h.headerSize + ‹Nat› / 8
          · exact absurd ⟨hf, hlt⟩ hn
          · exact Nat.not_lt.mp hlt⟩

theorem readContent_bad {wave : Bool} {h : BoxHeader}
    (hb : h.getDataSize > sub64 (sub64 sr.data.length h.offset) h.headerSize) :
    ∃ w, sr.readContent wave h = .error (.exc w) := by
  rw [readContent]
  dsimp only
  rw [if_pos hb]
  exact ⟨_, rfl⟩

theorem good (hl : sr.data.length < 2 ^ 63) (fuel : Nat) :
    (∀ path wave pos r, sr.readBox fuel path wave pos = some r → sr.BoxGood pos r) ∧
    (∀ n path wave limit done pos r, limit ≤ sr.data.length →
      readLoop (sr.readBox fuel path wave) limit n done pos = some r → sr.LoopGood limit done pos r) := by
  have loop : ∀ fuel, (∀ path wave pos r, sr.readBox fuel path wave pos = some r → sr.BoxGood pos r) →
      ∀ n path wave limit done pos r, limit ≤ sr.data.length →
      readLoop (sr.readBox fuel path wave) limit n done pos = some r → sr.LoopGood limit done pos r := by
    intro fuel ih n path wave limit
    induction n with
    | zero => intro _ _ _ _ h; rw [readLoop] at h; cases h
    | succ n ihn =>
      intro done pos r hlim hr
      rw [readLoop] at hr
      split at hr
      · rename_i hlt
        split at hr
        · cases hr
        · rename_i vs e hk
          cases hr
          obtain ⟨j, k⟩ := ih _ _ _ _ hk
          exact ⟨j, k⟩
        · rename_i vs size t e hk
          obtain ⟨j, k1, k2, k3, -, k7, k8, k9⟩ := ih _ _ _ _ hk
          simp only at k1 k2 k3 k7 k8 k9
          have hu : u64 (done + size) = done + size := Nat.mod_eq_of_lt (by omega)
          rw [hu] at hr
          split at hr
          · cases hr
          · rename_i ws e' hq
            cases hr
            obtain ⟨j', q⟩ := ihn _ _ _ hlim hq
            exact ⟨not_fits_append j j', InOrder.of_chain_append k1 q⟩
          · rename_i ws ts e' hq
            cases hr
            obtain ⟨j', q1, q2, q3, q4, q5, q6⟩ := ihn _ _ _ hlim hq
            simp only at q1 q2 q3 q4 q5 q6
            have hle := q1.le
            refine ⟨?_, Spec.Chain.append k1 q1, ?_, ?_, ?_, ?_, ?_⟩
            · intro x hx
              rcases List.mem_append.mp hx with hx | hx
              · exact j x hx
              · exact j' x hx
            · rw [Tree.headersList, k3, q2]
            · intro hc; omega
            · intro _
              by_cases hc : done + size ≤ limit
              · have := q4 hc; omega
              · omega
            · intro _
              by_cases hc : done + size < limit
              · have := q5 hc; omega
              · omega
            · intro _ hor
              by_cases hc : done + size ≤ limit
              · have h4 := q4 hc
                by_cases he : done + size = limit
                · have hts := q3 (by omega)
                  subst hts
                  have hE : pos + (limit - done) = pos + size := by omega
                  rw [hE] at hor ⊢
                  refine ⟨pos + size, k9 ?_, rfl⟩
                  omega
                · have h5 := q5 (by omega)
                  have hE : e = pos + size := by omega
                  subst hE
                  have hE : pos + (limit - done) = pos + size + (limit - (done + size)) := by omega
                  rw [hE] at hor ⊢
                  exact ⟨pos + size, k9 (.inl rfl), q6 hc hor⟩
              · omega
      · rename_i hge
        cases hr
        refine ⟨fun x hx => (List.not_mem_nil hx).elim, Nat.le_refl pos, rfl, fun _ => rfl, ?_, ?_, ?_⟩
        · intro _; omega
        · intro _; omega
        · intro _ _; show pos = _; omega
  suffices h : ∀ path wave pos r, sr.readBox fuel path wave pos = some r → sr.BoxGood pos r from ⟨h, loop fuel h⟩
  induction fuel with
  | zero => intro _ _ _ _ h; rw [readBox] at h; cases h
  | succ fuel ih =>
    have ihl := loop fuel ih
    intro path wave pos r hr
    rw [readBox_succ, readBoxBody] at hr
    generalize hh : read_box_header ⟨sr.data, pos⟩ = x at hr
    cases x with
    | error e =>
      rw [onHeader_error] at hr
      cases hr
      exact ⟨fun h hm => (List.not_mem_nil hm).elim, trivial⟩
    | ok h =>
      obtain ⟨ho, h8, hp, hs⟩ := read_box_header_ok sr.data pos h (by omega) hh
      obtain ⟨hfit, hds⟩ := fits_of_check hl ho h8 hp hs
      rw [onHeader_ok] at hr
      have hch : Spec.InOrder sr.data.length pos [h] := ⟨by omega, h8, by omega, trivial⟩
      cases hc : sr.readContent wave h with
      | error e =>
        simp only [hc] at hr
        cases hr
        refine ⟨?_, hch⟩
        intro x hx hn
        cases List.mem_singleton.mp hx
        obtain ⟨w, hw⟩ := sr.readContent_bad (wave := wave) (Decidable.not_not.mp fun hg => hn (hfit.mp hg))
        rw [hc] at hw
        cases hw
        exact ⟨⟨_, rfl⟩, rfl⟩
      | ok x =>
        obtain ⟨b, rbytes⟩ := x
        obtain ⟨hg, hbh, -⟩ := sr.readContent_ok hc
        have hf := hfit.mp hg
        have hds := hds hf
        simp only [hc] at hr
        split at hr
        · cases hr
        · rename_i vs e hk
          cases hr
          obtain ⟨j, k⟩ := ihl _ _ _ _ _ _ _ (by rw [hds]; unfold Spec.Fits at hf; omega) hk
          refine ⟨not_fits_imp hf j, ⟨by omega, h8, by omega, ?_⟩⟩
          exact InOrder.of_chain_append (vs := []) (m := h.offset + h.headerSize + rbytes) (by
            show _ ≤ _; omega) k
        · rename_i vs ls e hk
          cases hr
          obtain ⟨j, k1, k2, k3, k4, k5, k6⟩ := ihl _ _ _ _ _ _ _ (by rw [hds]; unfold Spec.Fits at hf; omega) hk
          have hle := k1.le
          simp only at k1 k2 k3 k4 k5 k6 hle hbh
          have hsz : h.headerSize ≤ h.size ∧ h.offset + h.size ≤ sr.data.length := hf
          refine ⟨?_, ?_, by rcases h8 with h8 | h8 <;> omega, ?_, ⟨h, hbh, rfl, ho⟩, by omega, ?_, ?_⟩
          · intro x hx
            rcases List.mem_cons.mp hx with rfl | hx
            · exact hf
            · exact j x hx
          · refine ⟨by omega, h8, by omega, ?_⟩
            exact Spec.Chain.append (vs := []) (m := h.offset + h.headerSize + rbytes) (by
              show _ ≤ _; omega) k1
          · simp only [Tree.headers, k2, hbh]; rfl
          · by_cases hc : rbytes ≤ h.getDataSize
            · have := k4 hc; omega
            · omega
          · intro hor
            refine ⟨h, hbh, ho, rfl, hsz.1, ?_⟩
            by_cases hc : rbytes ≤ h.getDataSize
            · right
              have hE : h.offset + h.headerSize + rbytes + (h.getDataSize - rbytes) = pos + h.size := by omega
              rw [hE] at k6
              exact ⟨_, by omega, k6 hc hor⟩
            · left
              exact k3 (by omega)

/-! ### fuel -/

theorem enough (hl : sr.data.length < 2 ^ 63) (fuel : Nat) :
    (∀ path wave pos, sr.data.length - pos + 1 ≤ fuel → sr.readBox fuel path wave pos ≠ none) ∧
    (∀ n path wave limit done pos, limit ≤ sr.data.length → sr.data.length - pos + 2 ≤ n → sr.data.length - pos + 1 ≤ fuel →
      readLoop (sr.readBox fuel path wave) limit n done pos ≠ none) := by
  have loop : ∀ fuel, (∀ path wave pos, sr.data.length - pos + 1 ≤ fuel → sr.readBox fuel path wave pos ≠ none) →
      ∀ n path wave limit done pos, limit ≤ sr.data.length → sr.data.length - pos + 2 ≤ n →
        sr.data.length - pos + 1 ≤ fuel → readLoop (sr.readBox fuel path wave) limit n done pos ≠ none := by
    intro fuel ih n path wave limit
    induction n with
    | zero => intro _ _ _ h; omega
    | succ n ihn =>
      intro done pos hlim hn hf
      rw [readLoop]
      split
      · have h1 := ih path wave pos hf
        split
        · contradiction
        · simp
        · rename_i vs size t e hk
          obtain ⟨-, k1, k2, k3, ⟨h, k4, -, -⟩, -⟩ := (good sr hl fuel).1 _ _ _ _ hk
          simp only at k1 k2 k3 k4
          have hpos : pos + 8 ≤ sr.data.length := by
            have : h ∈ vs := by
              rw [k3]
              obtain ⟨b, p, ls⟩ := t
              rw [Tree.headers]
              exact List.mem_append.mpr (.inl (by rw [show b.header = some h from k4]; simp))
            cases vs with
            | nil => cases this
            | cons x vs => have := k1.1; have := k1.2.2.1; rcases k1.2.1 with h | h <;> omega
          have h8 := ihn (u64 (done + size)) e hlim (by omega) (by omega)
          split
          · contradiction
          · simp
          · simp
      · simp
  suffices h : ∀ path wave pos, sr.data.length - pos + 1 ≤ fuel → sr.readBox fuel path wave pos ≠ none from
    ⟨h, loop fuel h⟩
  induction fuel with
  | zero => intro _ _ _ h; omega
  | succ fuel ih =>
    intro path wave pos hf
    rw [readBox_succ, readBoxBody]
    generalize hh : read_box_header ⟨sr.data, pos⟩ = x
    cases x with
    | error e => rw [onHeader_error]; simp
    | ok h =>
      obtain ⟨ho, h8, hp, hs⟩ := read_box_header_ok sr.data pos h (by omega) hh
      obtain ⟨hfit, hds⟩ := fits_of_check hl ho h8 hp hs
      rw [onHeader_ok]
      cases hc : sr.readContent wave h with
      | error e => simp
      | ok x =>
        obtain ⟨b, rbytes⟩ := x
        obtain ⟨hg, hbh, -⟩ := sr.readContent_ok hc
        have hff := hfit.mp hg
        have hds := hds hff
        unfold Spec.Fits at hff
        have := loop fuel ih fuel (path ++ [b.type]) (decide (b.type = fourcc "wave")) h.getDataSize rbytes
          (h.offset + h.headerSize + rbytes) (by omega) (by rcases h8 with h8 | h8 <;> omega)
          (by rcases h8 with h8 | h8 <;> omega)
        simp only
        split
        · contradiction
        · simp
        · simp

theorem body_header_error {self : List BoxType → Bool → Nat → Option (Run (Nat × Tree × Nat))} {fuel : Nat}
    {path : List BoxType} {wave : Bool} {pos : Nat} {e : Err} (hh : read_box_header ⟨sr.data, pos⟩ = .error e) :
    sr.readBoxBody self fuel path wave pos = some ⟨[], .error e⟩ := by
  rw [readBoxBody, hh, onHeader_error]

theorem body_content_error {self : List BoxType → Bool → Nat → Option (Run (Nat × Tree × Nat))} {fuel : Nat}
    {path : List BoxType} {wave : Bool} {pos : Nat} {h : BoxHeader} {e : Err}
    (hh : read_box_header ⟨sr.data, pos⟩ = .ok h) (hc : sr.readContent wave h = .error e) :
    sr.readBoxBody self fuel path wave pos = some ⟨[h], .error e⟩ := by
  rw [readBoxBody, hh, onHeader_ok, hc]

theorem body_ok {self : List BoxType → Bool → Nat → Option (Run (Nat × Tree × Nat))} {fuel : Nat}
    {path : List BoxType} {wave : Bool} {pos : Nat} {h : BoxHeader} {b : Box} {rbytes : Nat}
    (hh : read_box_header ⟨sr.data, pos⟩ = .ok h) (hc : sr.readContent wave h = .ok (b, rbytes)) :
    sr.readBoxBody self fuel path wave pos =
      match readLoop (self (path ++ [b.type]) (b.type = fourcc "wave")) h.getDataSize fuel rbytes
          (h.offset + h.headerSize + rbytes) with
      | none => none
      | some ⟨vs, .error e⟩ => some ⟨h :: vs, .error e⟩
      | some ⟨vs, .ok (leafs, pos')⟩ =>
        some ⟨h :: vs, .ok (h.size, .node b (path ++ [b.type]) leafs, pos')⟩ := by
  rw [readBoxBody, hh, onHeader_ok, hc]
  rfl

theorem more (fuel : Nat) :
    (∀ path wave pos r, sr.readBox fuel path wave pos = some r → sr.readBox (fuel + 1) path wave pos = some r) ∧
    (∀ n path wave limit done pos r, readLoop (sr.readBox fuel path wave) limit n done pos = some r →
      readLoop (sr.readBox (fuel + 1) path wave) limit (n + 1) done pos = some r) := by
  have loop : ∀ fuel, (∀ path wave pos r, sr.readBox fuel path wave pos = some r →
        sr.readBox (fuel + 1) path wave pos = some r) →
      ∀ n path wave limit done pos r, readLoop (sr.readBox fuel path wave) limit n done pos = some r →
      readLoop (sr.readBox (fuel + 1) path wave) limit (n + 1) done pos = some r := by
    intro fuel ih n path wave limit
    induction n with
    | zero => intro _ _ _ h; rw [readLoop] at h; cases h
    | succ n ihn =>
      intro done pos r hr
      rw [readLoop] at hr ⊢
      split
      · rename_i hb
        rw [if_pos hb] at hr
        cases hk : sr.readBox fuel path wave pos with
        | none => rw [hk] at hr; cases hr
        | some q =>
          rw [ih _ _ _ _ hk]
          rw [hk] at hr
          obtain ⟨vs, res⟩ := q
          cases res with
          | error e => exact hr
          | ok x =>
            obtain ⟨size, t, e⟩ := x
            simp only at hr ⊢
            cases hq : readLoop (sr.readBox fuel path wave) limit n (u64 (done + size)) e with
            | none => rw [hq] at hr; cases hr
            | some w => rw [ihn _ _ _ hq]; rw [hq] at hr; exact hr
      · rename_i hb
        rw [if_neg hb] at hr; exact hr
  suffices h : ∀ path wave pos r, sr.readBox fuel path wave pos = some r → sr.readBox (fuel + 1) path wave pos = some r from
    ⟨h, loop fuel h⟩
  induction fuel with
  | zero => intro _ _ _ _ h; rw [readBox] at h; cases h
  | succ fuel ih =>
    intro path wave pos r hr
    rw [readBox_succ] at hr ⊢
    generalize hh : read_box_header ⟨sr.data, pos⟩ = x
    cases x with
    | error e =>
      rw [sr.body_header_error hh] at hr ⊢
      exact hr
    | ok h =>
      generalize hc : sr.readContent wave h = y
      cases y with
      | error e =>
        rw [sr.body_content_error hh hc] at hr ⊢
        exact hr
      | ok x =>
        obtain ⟨b, rbytes⟩ := x
        rw [sr.body_ok hh hc] at hr ⊢
        generalize hk : readLoop (sr.readBox fuel (path ++ [b.type]) (decide (b.type = fourcc "wave")))
            h.getDataSize fuel rbytes (h.offset + h.headerSize + rbytes) = q at hr
        cases q with
        | none => cases hr
        | some q => rw [loop fuel ih _ _ _ _ _ _ _ hk]; exact hr

end SimpleReader
end Mp4
