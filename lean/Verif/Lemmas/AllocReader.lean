import Verif.Lemmas.AllocBox
import Verif.Lemmas.AllocBelow

/-! # The reader with an allocator that may refuse -/

namespace Mp4
open Spec
variable {α : Type}

/-- Compared with the run `plain`, the run `out` was ended by a refused request. -/
def EndedBy (plain out : Run α) : Prop := out.res = .error A.badAlloc ∧ out.visits <+: plain.visits

/-- The requests a run makes with unlimited memory are small enough, and the run with an allocator follows them. -/
def AllocSim (L : Nat) (plain : Option (Run α)) (lim : A.Policy → List Nat → Option (Run α × List Nat)) (val : α → Nat) : Prop :=
  ∀ run, plain = some run → ∃ all, (∀ n ∈ all, n < 2 ^ 32 ∨ n ≤ 8 * L) ∧ (∀ a, run.res = .ok a → all.sum ≤ val a) ∧
    ∀ g log, ∃ out, lim g log = some out ∧ AllocFollows g log run (EndedBy run) all out

theorem below_append {L : Nat} {a b : List Nat} (ha : ∀ n ∈ a, n < 2 ^ 32 ∨ n ≤ 8 * L) (hb : ∀ n ∈ b, n < 2 ^ 32 ∨ n ≤ 8 * L) :
    ∀ n ∈ a ++ b, n < 2 ^ 32 ∨ n ≤ 8 * L := by
  intro n hn
  rcases List.mem_append.mp hn with h | h
  · exact ha n h
  · exact hb n h

theorem loop_sim {L : Nat} {rb : Nat → Option (Run (Nat × Tree × Nat))} {rbA : A.Policy → Nat → List Nat → Option (Run (Nat × Tree × Nat) × List Nat)}
    (h : ∀ pos, AllocSim L (rb pos) (fun g => rbA g pos) (fun x => held x.2.1)) (limit : Nat) :
    ∀ fuel done pos, AllocSim L (SimpleReader.readLoop rb limit fuel done pos)
      (fun g log => SimpleReader.readLoopA (rbA g) limit fuel done pos log) (fun x => heldList x.1) := by
  intro fuel
  induction fuel with
  | zero => intro done pos run hr; cases hr
  | succ fuel ih =>
    intro done pos run hr
    rw [SimpleReader.readLoop] at hr
    simp only [SimpleReader.readLoopA]
    by_cases hd : limit > done
    · rw [if_pos hd] at hr
      simp only [if_pos hd]
      cases hb : rb pos with
      | none => rw [hb] at hr; cases hr
      | some x =>
        obtain ⟨vs, res⟩ := x
        rw [hb] at hr
        obtain ⟨all1, b1, s1, f1⟩ := h pos _ hb
        cases res with
        | error e =>
          cases hr
          refine ⟨all1, b1, (fun a h => by cases h), fun g log => ?_⟩
          obtain ⟨out, o1, o2⟩ := f1 g log
          dsimp only at o1
          rcases o2 with ⟨rfl, o3⟩ | ⟨new, o3, o4, o5, o6, o7⟩
          · rw [o1]
            exact ⟨_, rfl, .inl ⟨rfl, o3⟩⟩
          · obtain ⟨⟨vs', res'⟩, log'⟩ := out
            dsimp only at o6 o3 o7
            subst o6
            rw [o1]
            exact ⟨_, rfl, .inr ⟨new, o3, o4, o5, rfl, o7⟩⟩
        | ok x =>
          obtain ⟨size, t, pos'⟩ := x
          dsimp only at hr
          cases hq : SimpleReader.readLoop rb limit fuel (u64 (done + size)) pos' with
          | none => rw [hq] at hr; cases hr
          | some y =>
            obtain ⟨ws, res2⟩ := y
            rw [hq] at hr
            obtain ⟨all2, b2, s2, f2⟩ := ih _ _ _ hq
            have key : ∀ g log, ∃ out, (match rbA g pos log with
                  | none => none
                  | some (⟨vs, .error e⟩, log) => some (⟨vs, .error e⟩, log)
                  | some (⟨vs, .ok (size, t, pos')⟩, log) =>
                    match SimpleReader.readLoopA (rbA g) limit fuel (u64 (done + size)) pos' log with
                    | none => none
                    | some (⟨ws, .error e⟩, log) => some (⟨vs ++ ws, .error e⟩, log)
                    | some (⟨ws, .ok (ts, pos'')⟩, log) => some (⟨vs ++ ws, .ok (t :: ts, pos'')⟩, log) :
                    Option (Run (List Tree × Nat) × List Nat)) = some out ∧
                AllocFollows g log (⟨vs ++ ws, match res2 with | .error e => .error e | .ok (ts, p) => .ok (t :: ts, p)⟩ : Run (List Tree × Nat))
                  (EndedBy ⟨vs ++ ws, match res2 with | .error e => .error e | .ok (ts, p) => .ok (t :: ts, p)⟩) (all1 ++ all2) out := by
              intro g log
              obtain ⟨out, o1, o2⟩ := f1 g log
              dsimp only at o1
              rcases o2 with ⟨rfl, o3⟩ | ⟨new, o3, o4, o5, o6, o7⟩
              · rw [o1]
                dsimp only
                obtain ⟨out, p1, p2⟩ := f2 g (log ++ all1)
                dsimp only at p1
                rcases p2 with ⟨rfl, p3⟩ | ⟨new, p3, p4, p5, p6, p7⟩
                · rw [p1]
                  cases res2 with
                  | error e => exact ⟨_, rfl, .inl ⟨by rw [List.append_assoc], (granted_append _ _ _ _).mpr ⟨o3, p3⟩⟩⟩
                  | ok z => exact ⟨_, rfl, .inl ⟨by rw [List.append_assoc], (granted_append _ _ _ _).mpr ⟨o3, p3⟩⟩⟩
                · obtain ⟨⟨ws', res'⟩, log'⟩ := out
                  dsimp only at p6 p3 p7
                  subst p6
                  rw [p1]
                  refine ⟨_, rfl, .inr ⟨all1 ++ new, by rw [p3, List.append_assoc], RefusedAtLast.after o3 p4, ?_, rfl, ?_⟩⟩
                  · exact (List.prefix_append_right_inj _).mpr p5
                  · exact (List.prefix_append_right_inj _).mpr p7
              · obtain ⟨⟨vs', res'⟩, log'⟩ := out
                dsimp only at o6 o3 o7
                subst o6
                rw [o1]
                exact ⟨_, rfl, .inr ⟨new, o3, o4, o5.trans (List.prefix_append _ _), rfl, o7.trans (List.prefix_append _ _)⟩⟩
            cases res2 with
            | error e =>
              cases hr
              exact ⟨all1 ++ all2, below_append b1 b2, (fun a h => by cases h), key⟩
            | ok z =>
              obtain ⟨ts, p⟩ := z
              cases hr
              refine ⟨all1 ++ all2, below_append b1 b2, ?_, key⟩
              intro a ha
              cases ha
              have k1 := s1 _ rfl
              have k2 := s2 _ rfl
              dsimp only at k1 k2 ⊢
              rw [List.sum_append, heldList]
              omega
    · rw [if_neg hd] at hr
      simp only [if_neg hd]
      cases hr
      exact ⟨[], (fun n hn => by cases hn), (fun a ha => by cases ha; simp), fun g log => ⟨_, rfl, .inl ⟨by simp, trivial⟩⟩⟩

namespace SimpleReader

theorem content_sim (sr : SimpleReader) (wave : Bool) (h : BoxHeader) :
    ∃ all, (∀ n ∈ all, n < 2 ^ 32 ∨ n ≤ 8 * sr.data.length) ∧ (∀ b m, sr.readContent wave h = .ok (b, m) → all.sum ≤ b.data.elements) ∧
      ∀ g log, AllocFollows g log (sr.readContent wave h) (· = .error A.badAlloc) all (sr.readContentA g wave h log) := by
  unfold readContent readContentA
  dsimp only
  by_cases hs : h.getDataSize > sub64 (sub64 sr.data.length h.offset) h.headerSize
  · simp only [if_pos hs]
    exact ⟨[], (fun n hn => by cases hn), (fun b m h => by cases h), fun g log => .inl ⟨by simp, trivial⟩⟩
  simp only [if_neg hs]
  have hlen : (slice sr.data (h.offset + h.headerSize) h.getDataSize).length ≤ sr.data.length := by
    rw [slice, List.length_take, List.length_drop]
    omega
  generalize slice sr.data (h.offset + h.headerSize) h.getDataSize = ss at hlen
  have hb := below_readData sr.data.length (sr.env h.offset) (sr.classOf h.type).2 wave (sr.classOf h.type).1
  have ha := asked_readData (sr.env h.offset) (sr.classOf h.type).2 wave (sr.classOf h.type).1
  have he := erase_readData (sr.env h.offset) (sr.classOf h.type).2 wave (sr.classOf h.type).1
  rw [← he]
  generalize BoxData.readDataA (sr.env h.offset) (sr.classOf h.type).2 wave (sr.classOf h.type).1 = p at *
  have hf := fun g log => A.runC_follows g p (Reader.new ⟨ss, 0⟩) log
  have hbelow := hb.asks (Reader.new ⟨ss, 0⟩) hlen
  have hsum := ha (Reader.new ⟨ss, 0⟩)
  generalize A.asks p (Reader.new ⟨ss, 0⟩) = all at *
  refine ⟨all, hbelow, ?_, ?_⟩
  · intro b m hr
    cases hx : p.erase.runC (Reader.new ⟨ss, 0⟩) with
    | error e => rw [hx] at hr; cases hr
    | ok x =>
      obtain ⟨⟨rbits, data⟩, r⟩ := x
      have := hsum _ _ hx
      rw [hx] at hr
      dsimp only at hr this
      split at hr
      · cases hr
      · cases hr; exact this
  · intro g log
    rcases hf g log with ⟨h1, h2⟩ | ⟨new, h1, h2, h3, h4⟩
    · rw [h1]
      cases hx : p.erase.runC (Reader.new ⟨ss, 0⟩) with
      | error e => exact .inl ⟨rfl, h2⟩
      | ok x =>
        obtain ⟨⟨rbits, data⟩, r⟩ := x
        dsimp only
        split
        · exact .inl ⟨rfl, h2⟩
        · exact .inl ⟨rfl, h2⟩
    · cases hx : p.runC g (Reader.new ⟨ss, 0⟩) log with
      | mk r l =>
        rw [hx] at h1 h4
        dsimp only at h1 h4
        subst h4
        exact .inr ⟨new, h1, h2, h3, rfl⟩

/-- `onContentA` with unlimited memory -/
def onContent (header : BoxHeader) (path : List BoxType) (content : Except Err (Box × Nat))
    (children : Box → Nat → Option (Run (List Tree × Nat))) : Option (Run (Nat × Tree × Nat)) :=
  match content with
  | .error e => some ⟨[header], .error e⟩
  | .ok (box, rbytes) =>
    match children box rbytes with
    | none => none
    | some ⟨vs, .error e⟩ => some ⟨header :: vs, .error e⟩
    | some ⟨vs, .ok (leafs, pos')⟩ =>
      some ⟨header :: vs, .ok (header.size, .node box (path ++ [box.type]) leafs, pos')⟩

theorem onContent_sim {L : Nat} (header : BoxHeader) (path : List BoxType) (c : Except Err (Box × Nat))
    (cA : A.Policy → List Nat → Except Err (Box × Nat) × List Nat) (ch : Box → Nat → Option (Run (List Tree × Nat)))
    (chA : A.Policy → Box → Nat → List Nat → Option (Run (List Tree × Nat) × List Nat))
    (hc : ∃ all, (∀ n ∈ all, n < 2 ^ 32 ∨ n ≤ 8 * L) ∧ (∀ b m, c = .ok (b, m) → all.sum ≤ b.data.elements) ∧
      ∀ g log, AllocFollows g log c (· = .error A.badAlloc) all (cA g log))
    (hch : ∀ box n, AllocSim L (ch box n) (fun g => chA g box n) (fun x => heldList x.1)) :
    AllocSim L (onContent header path c ch) (fun g log => onContentA header path (cA g log) (chA g)) (fun x => held x.2.1) := by
  intro run hr
  obtain ⟨all1, b1, s1, f1⟩ := hc
  unfold onContent at hr
  cases c with
  | error e =>
    cases hr
    refine ⟨all1, b1, (fun a ha => by cases ha), fun g log => ?_⟩
    rcases f1 g log with ⟨h1, h2⟩ | ⟨new, h1, h2, h3, h4⟩
    · dsimp only
      rw [h1]
      exact ⟨_, rfl, .inl ⟨rfl, h2⟩⟩
    · dsimp only
      cases hx : cA g log with
      | mk r l =>
        rw [hx] at h1 h4
        dsimp only at h1 h4
        subst h4
        exact ⟨_, rfl, .inr ⟨new, h1, h2, h3, rfl, List.prefix_refl _⟩⟩
  | ok x =>
    obtain ⟨box, rbytes⟩ := x
    dsimp only at hr
    have s1' := s1 _ _ rfl
    cases hq : ch box rbytes with
    | none => rw [hq] at hr; cases hr
    | some y =>
      obtain ⟨ws, res2⟩ := y
      rw [hq] at hr
      obtain ⟨all2, b2, s2, f2⟩ := hch box rbytes _ hq
      have key : ∀ g log, ∃ out, onContentA header path (cA g log) (chA g) = some out ∧
          AllocFollows g log (⟨header :: ws, match res2 with
              | .error e => .error e
              | .ok (ts, p) => .ok (header.size, .node box (path ++ [box.type]) ts, p)⟩ : Run (Nat × Tree × Nat))
            (EndedBy ⟨header :: ws, match res2 with
              | .error e => .error e
              | .ok (ts, p) => .ok (header.size, .node box (path ++ [box.type]) ts, p)⟩) (all1 ++ all2) out := by
        intro g log
        unfold onContentA
        rcases f1 g log with ⟨h1, h2⟩ | ⟨new, h1, h2, h3, h4⟩
        · rw [h1]
          dsimp only
          obtain ⟨out, p1, p2⟩ := f2 g (log ++ all1)
          dsimp only at p1
          rcases p2 with ⟨rfl, p3⟩ | ⟨new, p3, p4, p5, p6, p7⟩
          · rw [p1]
            cases res2 with
            | error e => exact ⟨_, rfl, .inl ⟨by rw [List.append_assoc], (granted_append _ _ _ _).mpr ⟨h2, p3⟩⟩⟩
            | ok z => exact ⟨_, rfl, .inl ⟨by rw [List.append_assoc], (granted_append _ _ _ _).mpr ⟨h2, p3⟩⟩⟩
          · obtain ⟨⟨ws', res'⟩, log'⟩ := out
            dsimp only at p6 p3 p7
            subst p6
            rw [p1]
            refine ⟨_, rfl, .inr ⟨all1 ++ new, by rw [p3, List.append_assoc], RefusedAtLast.after h2 p4, ?_, rfl, ?_⟩⟩
            · exact (List.prefix_append_right_inj _).mpr p5
            · exact List.cons_prefix_cons.mpr ⟨rfl, p7⟩
        · cases hx : cA g log with
          | mk r l =>
            rw [hx] at h1 h4
            dsimp only at h1 h4
            subst h4
            exact ⟨_, rfl, .inr ⟨new, h1, h2, h3.trans (List.prefix_append _ _), rfl, List.cons_prefix_cons.mpr ⟨rfl, List.nil_prefix⟩⟩⟩
      cases res2 with
      | error e =>
        cases hr
        exact ⟨all1 ++ all2, below_append b1 b2, (fun a h => by cases h), key⟩
      | ok z =>
        obtain ⟨ts, p⟩ := z
        cases hr
        refine ⟨all1 ++ all2, below_append b1 b2, ?_, key⟩
        intro a ha
        cases ha
        have k2 := s2 _ rfl
        dsimp only at k2 ⊢
        rw [List.sum_append, held]
        omega

theorem onHeader_sim {L : Nat} {val : α → Nat} (h : Except Err BoxHeader) (k : BoxHeader → Option (Run α))
    (kA : A.Policy → BoxHeader → List Nat → Option (Run α × List Nat)) (hk : ∀ header, AllocSim L (k header) (fun g => kA g header) val) :
    AllocSim L (onHeader h k) (fun g log => onHeaderA h (kA g) log) val := by
  intro run hr
  cases h with
  | error e =>
    cases hr
    exact ⟨[], (fun n hn => by cases hn), (fun a ha => by cases ha), fun g log => ⟨_, rfl, .inl ⟨by simp, trivial⟩⟩⟩
  | ok header => exact hk header run hr

theorem readBoxBody_eq (sr : SimpleReader) (self : List BoxType → Bool → Nat → Option (Run (Nat × Tree × Nat))) (fuel : Nat)
    (path : List BoxType) (wave : Bool) (pos : Nat) : sr.readBoxBody self fuel path wave pos =
      onHeader (read_box_header ⟨sr.data, pos⟩) fun header => onContent header path (sr.readContent wave header) fun box rbytes =>
        readLoop (self (path ++ [box.type]) (box.type = fourcc "wave")) header.getDataSize fuel rbytes
          (header.offset + header.headerSize + rbytes) := by
  rw [readBoxBody]
  refine congrArg _ (funext fun header => ?_)
  generalize sr.readContent wave header = c
  cases c with
  | error e => rfl
  | ok x => rfl

theorem body_sim (sr : SimpleReader) {self : List BoxType → Bool → Nat → Option (Run (Nat × Tree × Nat))}
    {selfA : A.Policy → List BoxType → Bool → Nat → List Nat → Option (Run (Nat × Tree × Nat) × List Nat)}
    (h : ∀ path wave pos, AllocSim sr.data.length (self path wave pos) (fun g => selfA g path wave pos) (fun x => held x.2.1)) (fuel : Nat)
    (path : List BoxType) (wave : Bool) (pos : Nat) :
    AllocSim sr.data.length (sr.readBoxBody self fuel path wave pos) (fun g log => sr.readBoxBodyA g (selfA g) fuel path wave pos log)
      (fun x => held x.2.1) := by
  rw [readBoxBody_eq]
  simp only [readBoxBodyA]
  generalize read_box_header ⟨sr.data, pos⟩ = hd
  refine onHeader_sim (val := fun x => held x.2.1) hd _ (fun g header log =>
    onContentA header path (sr.readContentA g wave header log) fun box rbytes log =>
      readLoopA (selfA g (path ++ [box.type]) (box.type = fourcc "wave")) header.getDataSize fuel rbytes
          (header.offset + header.headerSize + rbytes) log) fun header => ?_
  exact onContent_sim header path (sr.readContent wave header) (fun g log => sr.readContentA g wave header log) _
    (fun g box rbytes log => readLoopA (selfA g (path ++ [box.type]) (box.type = fourcc "wave")) header.getDataSize fuel rbytes
          (header.offset + header.headerSize + rbytes) log) (sr.content_sim wave header)
    fun box n => loop_sim (h (path ++ [box.type]) (box.type = fourcc "wave")) header.getDataSize fuel n (header.offset + header.headerSize + n)

theorem readBox_sim' (sr : SimpleReader) (fuel : Nat) : ∀ path wave pos,
    AllocSim sr.data.length (sr.readBox fuel path wave pos) (fun g => sr.readBoxA g fuel path wave pos) (fun x => held x.2.1) := by
  induction fuel with
  | zero => intro path wave pos run hr; cases hr
  | succ fuel ih =>
    intro path wave pos
    exact sr.body_sim (self := sr.readBox fuel) (selfA := fun g => sr.readBoxA g fuel) ih fuel path wave pos

/-- Reading a file: the requests it makes with unlimited memory, and what happens with the allocator `g`. -/
theorem read_follows (sr : SimpleReader) (run : Run (List Tree)) (hr : sr.read = some run) :
    ∃ all, (∀ n ∈ all, n < 2 ^ 32 ∨ n ≤ 8 * sr.data.length) ∧ (∀ ts, run.res = .ok ts → all.sum ≤ heldList ts) ∧
      ∀ g, ∃ out, sr.readA g = some out ∧ AllocFollows g [] run (EndedBy run) all out := by
  rw [read, readWith] at hr
  cases hq : readLoop (sr.readBox (sr.data.length + 2) [] false) sr.data.length (sr.data.length + 2) 0 0 with
  | none => rw [hq] at hr; cases hr
  | some y =>
    obtain ⟨vs, res⟩ := y
    rw [hq] at hr
    obtain ⟨all, b, s, f⟩ := loop_sim (sr.readBox_sim' (sr.data.length + 2) [] false) sr.data.length (sr.data.length + 2) 0 0 _ hq
    have key : ∀ g, ∃ out, sr.readA g = some out ∧ AllocFollows g [] (⟨vs, match res with | .error e => .error e | .ok (ts, _) => .ok ts⟩ : Run (List Tree))
        (EndedBy ⟨vs, match res with | .error e => .error e | .ok (ts, _) => .ok ts⟩) all out := by
      intro g
      obtain ⟨out, o1, o2⟩ := f g []
      dsimp only at o1
      rw [readA, o1]
      rcases o2 with ⟨rfl, o3⟩ | ⟨new, o3, o4, o5, o6, o7⟩
      · cases res with
        | error e => exact ⟨_, rfl, .inl ⟨rfl, o3⟩⟩
        | ok z => exact ⟨_, rfl, .inl ⟨rfl, o3⟩⟩
      · obtain ⟨⟨vs', res'⟩, log'⟩ := out
        dsimp only at o6 o3 o7
        subst o6
        exact ⟨_, rfl, .inr ⟨new, o3, o4, o5, rfl, o7⟩⟩
    cases res with
    | error e =>
      cases hr
      exact ⟨all, b, (fun a h => by cases h), key⟩
    | ok z =>
      cases hr
      refine ⟨all, b, ?_, key⟩
      intro a ha
      cases ha
      exact s _ rfl

end SimpleReader
end Mp4
