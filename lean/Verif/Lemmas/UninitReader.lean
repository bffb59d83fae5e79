import Verif.Lemmas.Uninit

/-! # A file read with different contents of uninitialised members -/

namespace Mp4
open R Spec SimpleReader

variable {α β γ δ : Type}

/-- The same exception, or related results. -/
def SameEx (Q : α → β → Prop) : Except Err α → Except Err β → Prop
  | .error e, .error e' => e = e'
  | .ok a, .ok b => Q a b
  | _, _ => False

theorem SameEnd.runC {Q : α → β → Prop} {p : R α} {q : R β} {d : List Byte}
    (h : SameEnd Q (p.run d (bytesBits d)) (q.run d (bytesBits d))) :
    SameEx (fun a b => Q a.1 b.1) (p.runC (Reader.new ⟨d, 0⟩)) (q.runC (Reader.new ⟨d, 0⟩)) := by
  have hp := R.runC_run p (Reader.new ⟨d, 0⟩) (Reader.new_inv _ (Nat.zero_le _))
  have hq := R.runC_run q (Reader.new ⟨d, 0⟩) (Reader.new_inv _ (Nat.zero_le _))
  have hrem : (Reader.new ⟨d, 0⟩).rem = bytesBits d := by simp [Reader.rem, Reader.new, natBits]
  have hdat : (Reader.new ⟨d, 0⟩).is.data = d := rfl
  rw [hrem, hdat] at hp hq
  generalize p.run d (bytesBits d) = x at h hp
  generalize q.run d (bytesBits d) = y at h hq
  match x, y, h, hp, hq with
  | .error e, .error e', h, hp, hq =>
    rw [hp, hq]
    exact h
  | .ok (a, s), .ok (b, s'), h, hp, hq =>
    obtain ⟨_, hp, -⟩ := hp
    obtain ⟨_, hq, -⟩ := hq
    rw [hp, hq]
    exact h.1

/-- Boxes alike, with the same count of bytes. -/
def BoxLike (x y : Box × Nat) : Prop :=
  x.1.type = y.1.type ∧ x.1.header = y.1.header ∧ Alike x.1.type x.1.data y.1.data ∧ x.2 = y.2

theorem withPayload_blind (file : Bool) (k : Kind × BoxType) (env env' : Env) (hf : env.Fresh) (hf' : env'.Fresh) (wave : Bool)
    (header : BoxHeader) (p : Prop) [Decidable p] (ss : List Byte) (f : Nat → Prop) [∀ n, Decidable (f n)]
    (h : k.1 = .sgpd → NoLength ss → env.sgpd.default_length = env'.sgpd.default_length) :
    SameEx BoxLike (withPayload file k env wave header p ss f) (withPayload file k env' wave header p ss f) := by
  unfold withPayload
  by_cases hp : p
  · rw [if_pos hp, if_pos hp]; exact rfl
  rw [if_neg hp, if_neg hp]
  have := SameEnd.runC (BoxData.blind env env' hf hf' k.2 wave k.1 ss h)
  generalize (BoxData.readData env k.2 wave k.1).runC (Reader.new ⟨ss, 0⟩) = x at this ⊢
  generalize (BoxData.readData env' k.2 wave k.1).runC (Reader.new ⟨ss, 0⟩) = y at this ⊢
  match x, y, this with
  | .error e, .error e', this => exact this
  | .ok ((n, a), _), .ok ((m, b), _), this =>
    obtain ⟨h1, h2⟩ := this
    have h1 : n = m := h1
    subst h1
    dsimp only
    by_cases hc : file = false ∧ f (n / 8)
    · rw [if_pos hc, if_pos hc]; exact rfl
    · rw [if_neg hc, if_neg hc]
      exact ⟨rfl, rfl, h2, rfl⟩

namespace SimpleReader
variable (sr : SimpleReader) (env' : Nat → Env)

/-- The same reader where uninitialised members contain something else. -/
def withJunk : SimpleReader := { sr with env := env' }

/-- Where it matters, `default_length` contains the same. -/
def Agree (h : BoxHeader) : Prop :=
  (sr.classOf h.type).1 = .sgpd → NoLength (slice sr.data (h.offset + h.headerSize) h.getDataSize) →
    (sr.env h.offset).sgpd.default_length = (env' h.offset).sgpd.default_length

variable (hf : ∀ o, (sr.env o).Fresh) (hf' : ∀ o, (env' o).Fresh)
include hf hf'

theorem content_blind (wave : Bool) (h : BoxHeader) (ha : sr.Agree env' h) :
    SameEx BoxLike (sr.readContent wave h) ((sr.withJunk env').readContent wave h) := by
  rw [readContent_payload, readContent_payload]
  exact withPayload_blind _ _ _ _ (hf _) (hf' _) _ _ _ _ _ ha

/-- The same headers were read, and the results are related. -/
def SameRun (Q : α → β → Prop) (x : Run α) (y : Option (Run β)) : Prop :=
  ∃ r, y = some r ∧ x.visits = r.visits ∧ SameEx Q x.res r.res

omit hf hf' in
theorem loop_blind {f g : Nat → Option (Run (Nat × Tree × Nat))} (P : BoxHeader → Prop)
    (h : ∀ pos r, f pos = some r → (∀ h ∈ r.visits, P h) → SameRun (fun x y => x.1 = y.1 ∧ x.2.1.Alike y.2.1 ∧ x.2.2 = y.2.2) r (g pos))
    (limit : Nat) : ∀ n done pos r, readLoop f limit n done pos = some r → (∀ h ∈ r.visits, P h) →
    SameRun (fun x y => Tree.AlikeList x.1 y.1 ∧ x.2 = y.2) r (readLoop g limit n done pos) := by
  intro n
  induction n with
  | zero => intro _ _ _ hr; cases hr
  | succ n ih =>
    intro done pos r hr hp
    rw [readLoop] at hr ⊢
    by_cases hb : limit > done
    · rw [if_pos hb] at hr ⊢
      cases hq : f pos with
      | none => rw [hq] at hr; cases hr
      | some q =>
        rw [hq] at hr
        obtain ⟨vs, res⟩ := q
        cases res with
        | error e =>
          cases hr
          obtain ⟨⟨ws, res'⟩, h1, h2, h3⟩ := h pos _ hq hp
          dsimp only at h2 h3
          subst h2
          rw [h1]
          cases res' with
          | ok y => exact h3.elim
          | error e' => exact ⟨_, rfl, rfl, h3⟩
        | ok x =>
          obtain ⟨size, t, e⟩ := x
          dsimp only at hr
          cases hl : readLoop f limit n (u64 (done + size)) e with
          | none => rw [hl] at hr; cases hr
          | some w =>
            rw [hl] at hr
            obtain ⟨us, res2⟩ := w
            have hvis : r.visits = vs ++ us := by
              cases res2 with
              | error e => cases hr; rfl
              | ok y => cases hr; rfl
            obtain ⟨⟨ws, res'⟩, h1, h2, h3⟩ := h pos _ hq fun x hx => hp x (by rw [hvis]; exact List.mem_append.mpr (.inl hx))
            dsimp only at h2 h3
            subst h2
            cases res' with
            | error e' => exact h3.elim
            | ok y =>
              obtain ⟨size', t', e'⟩ := y
              obtain ⟨k1, k2, k3⟩ := h3
              have k1 : size = size' := k1
              have k3 : e = e' := k3
              subst k1
              subst k3
              obtain ⟨⟨ws', res''⟩, m1, m2, m3⟩ := ih _ _ _ hl fun x hx => hp x (by rw [hvis]; exact List.mem_append.mpr (.inr hx))
              dsimp only at m2 m3
              subst m2
              rw [h1]
              dsimp only
              rw [m1]
              cases res2 with
              | error e =>
                cases res'' with
                | ok y => exact m3.elim
                | error e' => cases hr; exact ⟨_, rfl, rfl, m3⟩
              | ok y =>
                cases res'' with
                | error e' => exact m3.elim
                | ok z => cases hr; exact ⟨_, rfl, rfl, ⟨k2, m3.1⟩, m3.2⟩
    · rw [if_neg hb] at hr ⊢
      cases hr
      exact ⟨_, rfl, rfl, trivial, rfl⟩

theorem box_blind (fuel : Nat) : ∀ path wave pos r, sr.readBox fuel path wave pos = some r → (∀ h ∈ r.visits, sr.Agree env' h) →
    SameRun (fun x y => x.1 = y.1 ∧ x.2.1.Alike y.2.1 ∧ x.2.2 = y.2.2) r ((sr.withJunk env').readBox fuel path wave pos) := by
  induction fuel with
  | zero => intro _ _ _ _ hr; cases hr
  | succ fuel ih =>
    intro path wave pos r hr hp
    rw [readBox_succ] at hr ⊢
    cases hh : read_box_header ⟨sr.data, pos⟩ with
    | error e =>
      rw [body_header_error _ hh] at hr
      cases hr
      rw [body_header_error _ (show read_box_header ⟨(sr.withJunk env').data, pos⟩ = _ from hh)]
      exact ⟨_, rfl, rfl, rfl⟩
    | ok h =>
      have hh' : read_box_header ⟨(sr.withJunk env').data, pos⟩ = .ok h := hh
      have hmem : h ∈ r.visits := by
        cases hc : sr.readContent wave h with
        | error e => rw [body_content_error _ hh hc] at hr; cases hr; exact List.mem_cons_self ..
        | ok x =>
          obtain ⟨b, n⟩ := x
          rw [body_ok _ hh hc] at hr
          split at hr
          · cases hr
          · cases hr; exact List.mem_cons_self ..
          · cases hr; exact List.mem_cons_self ..
      have hc := sr.content_blind env' hf hf' wave h (hp h hmem)
      cases hx : sr.readContent wave h with
      | error e =>
        rw [hx] at hc
        cases hy : (sr.withJunk env').readContent wave h with
        | ok y => rw [hy] at hc; exact hc.elim
        | error e' =>
          rw [hy] at hc
          rw [body_content_error _ hh hx] at hr
          cases hr
          rw [body_content_error _ hh' hy]
          exact ⟨_, rfl, rfl, hc⟩
      | ok x =>
        rw [hx] at hc
        cases hy : (sr.withJunk env').readContent wave h with
        | error e' => rw [hy] at hc; exact hc.elim
        | ok y =>
          rw [hy] at hc
          obtain ⟨b, n⟩ := x
          obtain ⟨b', n'⟩ := y
          obtain ⟨c1, c2, c3, c4⟩ := hc
          have c4 : n = n' := c4
          subst c4
          dsimp only at c1 c2 c3
          rw [body_ok _ hh hx] at hr
          rw [body_ok _ hh' hy, ← c1]
          cases hl : readLoop (sr.readBox fuel (path ++ [b.type]) (decide (b.type = fourcc "wave"))) h.getDataSize fuel n
              (h.offset + h.headerSize + n) with
          | none => rw [hl] at hr; cases hr
          | some w =>
            rw [hl] at hr
            obtain ⟨vs, res⟩ := w
            have hvis : r.visits = h :: vs := by
              cases res with
              | error e => cases hr; rfl
              | ok y => cases hr; rfl
            obtain ⟨⟨ws, res'⟩, m1, m2, m3⟩ := loop_blind (sr.Agree env') (fun pos r => ih _ _ pos r) _ _ _ _ _ hl
              fun x hx => hp x (by rw [hvis]; exact List.mem_cons_of_mem _ hx)
            dsimp only at m2 m3
            subst m2
            rw [m1]
            cases res with
            | error e =>
              cases res' with
              | ok y => exact m3.elim
              | error e' => cases hr; exact ⟨_, rfl, rfl, m3⟩
            | ok y =>
              cases res' with
              | error e' => exact m3.elim
              | ok z => cases hr; exact ⟨_, rfl, rfl, rfl, ⟨c1, c2, by rw [c1], c3, m3.1⟩, m3.2⟩

theorem read_blind (vs : List BoxHeader) (res : Except Err (List Tree)) (hr : sr.read = some ⟨vs, res⟩) (hp : ∀ h ∈ vs, sr.Agree env' h) :
    ∃ res', (sr.withJunk env').read = some ⟨vs, res'⟩ ∧ SameEx Tree.AlikeList res res' := by
  rw [read, readWith] at hr ⊢
  cases hl : readLoop (sr.readBox (sr.data.length + 2) [] false) sr.data.length (sr.data.length + 2) 0 0 with
  | none => rw [hl] at hr; cases hr
  | some w =>
    rw [hl] at hr
    obtain ⟨us, res0⟩ := w
    have hvis : us = vs := by
      cases res0 with
      | error e => cases hr; rfl
      | ok y => cases hr; rfl
    obtain ⟨⟨ws, res'⟩, m1, m2, m3⟩ := loop_blind (sr.Agree env') (fun pos r => sr.box_blind env' hf hf' (sr.data.length + 2) [] false pos r)
      sr.data.length (sr.data.length + 2) 0 0 _ hl (by rw [hvis]; exact hp)
    dsimp only at m2 m3
    subst m2
    have m1 : readLoop ((sr.withJunk env').readBox ((sr.withJunk env').data.length + 2) [] false) (sr.withJunk env').data.length
      ((sr.withJunk env').data.length + 2) 0 0 = _ := m1
    rw [m1]
    cases res0 with
    | error e =>
      cases res' with
      | ok y => exact m3.elim
      | error e' => cases hr; exact ⟨_, rfl, m3⟩
    | ok y =>
      cases res' with
      | error e' => exact m3.elim
      | ok z => cases hr; exact ⟨_, rfl, m3.1⟩

end SimpleReader
end Mp4
