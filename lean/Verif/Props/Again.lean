import Verif.Props.Memory

/-! # C76: calling `read` again -/

namespace Mp4
open Mem Mem.ATree

theorem read_box_header_at_end (d : List Byte) (hl : d.length < 2 ^ 64) :
    read_box_header ⟨d, d.length⟩ = .error (.exc "read_box_header(): stream has not enough data (1)") := by
  have h8 : sub64 d.length d.length < SMALL_HEADER_SIZE := by
    rw [sub64_eq (Nat.le_refl _) hl, Nat.sub_self]; decide
  unfold read_box_header
  dsimp only
  rw [if_pos h8]

attribute [local irreducible] BoxData.readData fourcc R.runC slice read_box_header SimpleReader.readBox

theorem header_behind (d : List Byte) (hl : d.length < 2 ^ 64) (pos : Nat) (hp : d.length ≤ pos) :
    ∃ e, read_box_header ⟨d, pos⟩ = .error e ∧
      (pos = d.length → e = .exc "read_box_header(): stream has not enough data (1)") := by
  by_cases hp : pos = d.length
  · subst hp
    exact ⟨_, read_box_header_at_end d hl, fun _ => rfl⟩
  · cases hk : read_box_header ⟨d, pos⟩ with
    | error e => exact ⟨e, rfl, fun h => absurd h hp⟩
    | ok x =>
      obtain ⟨-, h2, h3, -⟩ := read_box_header_ok d pos x hl hk
      exfalso
      omega

namespace SimpleReader

theorem read_from (sr : SimpleReader) : sr.read = match sr.readFrom 0 with
    | none => none
    | some ⟨vs, .error e⟩ => some ⟨vs, .error e⟩
    | some ⟨vs, .ok (ts, _)⟩ => some ⟨vs, .ok ts⟩ := by
  rw [read, readWith, readFrom]
  rfl

theorem readFrom_ends (sr : SimpleReader) (hl : sr.data.length < 2 ^ 63) (pos : Nat) : ∃ r, sr.readFrom pos = some r := by
  have h := (sr.enough hl (sr.data.length + 2)).2 (sr.data.length + 2) [] false sr.data.length 0 pos (Nat.le_refl _) (by omega) (by omega)
  exact Option.ne_none_iff_exists'.mp h

theorem readFrom_header_error (sr : SimpleReader) (hlen : 0 < sr.data.length) {pos : Nat} {e : Err}
    (h : read_box_header ⟨sr.data, pos⟩ = .error e) : sr.readFrom pos = some ⟨[], .error e⟩ := by
  have hb : sr.readBox (sr.data.length + 2) [] false pos = some ⟨[], .error e⟩ := by
    rw [readBox_succ, body_header_error sr h]
  rw [readFrom, readLoop, if_pos hlen, hb]

end SimpleReader

/-- **C76** After `read` has returned on a file that is not empty, the stream is at the end or behind it, and another `read` does not return: it
fails before it has read any header, at the end with this exception. -/
theorem C76_second_read (sr : SimpleReader) (hl : sr.data.length < 2 ^ 63) (hne : sr.data ≠ []) (vs : List BoxHeader) (ts : List Tree) (pos : Nat)
    (h : sr.readFrom 0 = some ⟨vs, .ok (ts, pos)⟩) :
    sr.read = some ⟨vs, .ok ts⟩ ∧ sr.data.length ≤ pos ∧
      ∃ e, sr.readFrom pos = some ⟨[], .error e⟩ ∧
        (pos = sr.data.length → e = .exc "read_box_header(): stream has not enough data (1)") := by
  have hlen : 0 < sr.data.length := List.length_pos_iff.mpr hne
  have hg := (sr.good hl (sr.data.length + 2)).2 _ _ _ _ _ _ _ (Nat.le_refl _) h
  obtain ⟨-, -, -, -, g4, -, -⟩ := hg
  have hpos : sr.data.length ≤ pos := by have := g4 (Nat.zero_le _); omega
  refine ⟨by rw [sr.read_from, h], hpos, ?_⟩
  obtain ⟨e, h1, h2⟩ := header_behind sr.data (by omega) pos hpos
  exact ⟨e, sr.readFrom_header_error hlen h1, h2⟩

/-- **C76** Wherever else than at its beginning an earlier call has left the stream, `read` does not return. -/
theorem C76_returns_only_once (sr : SimpleReader) (hl : sr.data.length < 2 ^ 63) (hne : sr.data ≠ []) (pos : Nat) (hp : 0 < pos) :
    ∃ vs e, sr.readFrom pos = some ⟨vs, .error e⟩ := by
  obtain ⟨⟨vs, res⟩, hr⟩ := sr.readFrom_ends hl pos
  cases res with
  | error e => exact ⟨vs, e, hr⟩
  | ok x =>
    have hg := (sr.good hl (sr.data.length + 2)).2 _ _ _ _ _ _ _ (Nat.le_refl _) hr
    obtain ⟨-, -, -, -, -, g5, -⟩ := hg
    have := g5 (List.length_pos_iff.mpr hne)
    omega

/-! ### The objects -/

/-- The strays of an earlier call stay. -/
theorem Mem.Ext.more {s s1 s2 : State} {ts1 ts2 : List ATree} {st1 st2 : List Nat}
    (h1 : Ext s s1 none ts1 st1) (h2 : Ext s1 s2 none ts2 st2) : Ext s s2 none (ts1 ++ ts2) (st1 ++ st2) := by
  have hle := h1.le
  have hle2 := h2.le
  refine ⟨by omega, ?_, ?_, ?_, ?_, ?_, fun h => h2.above (h1.above h)⟩
  · intro x hx
    rw [h2.old x (by omega), attached_other (by simp), attached_other (by simp), h1.keeps hx (by simp)]
  · rw [h2.boxes]
    have := h1.boxes
    simp only [attached] at this ⊢
    rw [this]; simp
  · refine RepList_append (RepList.frame _ h1.rep fun x hx => ?_) h2.rep
    have := (h1.new x).mp (List.mem_append_left _ hx)
    exact h2.keeps this.2 (by simp)
  · have hp : (addrsList (ts1 ++ ts2) ++ (st1 ++ st2)).Perm ((addrsList ts1 ++ st1) ++ (addrsList ts2 ++ st2)) := by
      rw [addrsList_append, List.append_assoc, List.append_assoc]
      refine List.Perm.append_left _ ?_
      rw [← List.append_assoc, ← List.append_assoc]
      exact List.Perm.append_right _ List.perm_append_comm
    rw [hp.nodup_iff, List.nodup_append]
    refine ⟨h1.nodup, h2.nodup, ?_⟩
    intro x hx y hy e
    have h3 := (h1.new x).mp hx
    have h4 := (h2.new y).mp hy
    omega
  · intro x
    have a1 := h1.new x
    have a2 := h2.new x
    rw [List.mem_append] at a1 a2
    rw [addrsList_append, List.mem_append, List.mem_append, List.mem_append]
    constructor
    · rintro ((h | h) | (h | h))
      · have := a1.mp (.inl h); omega
      · have := a2.mp (.inl h); omega
      · have := a1.mp (.inr h); omega
      · have := a2.mp (.inr h); omega
    · rintro ⟨h, k⟩
      by_cases hx : x < s1.next
      · rcases a1.mpr ⟨h, hx⟩ with q | q
        · exact .inl (.inl q)
        · exact .inr (.inl q)
      · rcases a2.mpr ⟨by omega, k⟩ with q | q
        · exact .inl (.inr q)
        · exact .inr (.inr q)

theorem attempt_run {α : Type} {m : M α} {s s' : State} {r : Except Err α} (h : m s = some (r, s')) :
    SimpleReader.attempt m s = some (.ok r, s') := by
  unfold SimpleReader.attempt
  rw [h]

/-- One failing call, on the heap. -/
theorem readFromM_error (sr : SimpleReader) {pos : Nat} {vs : List BoxHeader} {e : Err} (h : sr.readFrom pos = some ⟨vs, .error e⟩) (s : State) :
    ∃ s' us st, sr.readFromM (sr.data.length + 2) pos s = some (.error e, s') ∧ Ext s s' none us st ∧ st.length ≤ 1 := by
  have hsim := loop_sim (fun pos s => readBox_sim sr (sr.data.length + 2) none [] false pos s) sr.data.length (sr.data.length + 2) 0 pos s
    ⟨rfl, rfl⟩
  unfold SimpleReader.readFrom at h
  rw [h] at hsim
  obtain ⟨s', us, st, h1, h2, h3⟩ := hsim
  refine ⟨s', us, st, bind_error h1, h2, ?_⟩
  rcases h3 with rfl | ⟨_, _, rfl, -⟩
  · exact Nat.zero_le _
  · exact Nat.le_refl _

theorem readsM_errors (sr : SimpleReader) (hl : sr.data.length < 2 ^ 63) (hne : sr.data ≠ []) : ∀ (ps : List Nat) (s : State),
    (∀ p ∈ ps, 0 < p) → ∃ rs s' us st, sr.readsM (sr.data.length + 2) ps s = some (.ok rs, s') ∧ Ext s s' none us st ∧ st.length ≤ ps.length ∧
      rs.length = ps.length ∧ ∀ r ∈ rs, ∃ e, r = .error e
  | [], s, _ => ⟨[], s, [], [], rfl, Ext.refl s none, Nat.le_refl _, rfl, fun _ h => nomatch h⟩
  | p :: ps, s, hp => by
    obtain ⟨vs, e, h1⟩ := C76_returns_only_once sr hl hne p (hp p (by simp))
    obtain ⟨s1, us1, st1, h2, h3, h4⟩ := readFromM_error sr h1 s
    obtain ⟨rs, s2, us2, st2, k1, k2, k3, k4, k5⟩ := readsM_errors sr hl hne ps s1 (fun q hq => hp q (by simp [hq]))
    refine ⟨.error e :: rs, s2, _, _, ?_, h3.more k2, ?_, ?_, ?_⟩
    · rw [SimpleReader.readsM, bind_ok (attempt_run h2), bind_ok k1]
      rfl
    · rw [List.length_append, List.length_cons]; omega
    · rw [List.length_cons, List.length_cons, k4]
    · intro r hr
      rcases List.mem_cons.mp hr with rfl | hr
      · exact ⟨e, rfl⟩
      · exact k5 r hr

/-- **C76** A program may call `read` again and again on one reader, wherever the calls find the stream, and catch the exceptions: the first call
does what C74 says, the others throw, and the destructor deletes every object once, except at most one header per call. -/
theorem C76_history (sr : SimpleReader) (hl : sr.data.length < 2 ^ 63) (hne : sr.data ≠ []) (ps : List Nat) (hp : ∀ p ∈ ps, 0 < p) :
    ∃ run rs s, sr.read = some run ∧ sr.readsM (sr.data.length + 2) (0 :: ps) {} = some (.ok (run.res :: rs), s) ∧
      rs.length = ps.length ∧ (∀ r ∈ rs, ∃ e, r = .error e) ∧
      ∃ n, ∀ fuel, n ≤ fuel → ∃ s', SimpleReader.destroyM fuel s = some (.ok (), s') ∧
        ∃ l : List Nat, l.length ≤ ps.length + 1 ∧ ∀ a, s'.cell a ≠ none → a ∈ l := by
  have key : ∃ run s1 us1 st1, sr.read = some run ∧ sr.readFromM (sr.data.length + 2) 0 {} = some (run.res, s1) ∧
      Ext {} s1 none us1 st1 ∧ st1.length ≤ 1 := by
    obtain ⟨⟨vs, res⟩, hr⟩ := sr.readFrom_ends hl 0
    cases res with
    | error e =>
      obtain ⟨s1, us, st, h1, h2, h3⟩ := readFromM_error sr hr {}
      exact ⟨⟨vs, .error e⟩, s1, us, st, by rw [sr.read_from, hr], h1, h2, h3⟩
    | ok x =>
      obtain ⟨ts, pos⟩ := x
      have hsim := loop_sim (fun pos s => readBox_sim sr (sr.data.length + 2) none [] false pos s) sr.data.length (sr.data.length + 2) 0 0 {}
        wf_root
      have hr' := hr
      unfold SimpleReader.readFrom at hr
      rw [hr] at hsim
      obtain ⟨s1, us, h1, h2, h3, h4⟩ := hsim
      refine ⟨⟨vs, .ok ts⟩, s1, us, [], by rw [sr.read_from, hr'], ?_, h2, Nat.zero_le _⟩
      unfold SimpleReader.readFromM
      rw [bind_ok h1]
      unfold SimpleReader.printM
      rw [h2.boxes, attached_root]
      exact loads_ok us ts s1 _ h3 h4
  obtain ⟨run, s1, us1, st1, h1, h2, h3, h4⟩ := key
  obtain ⟨rs, s2, us2, st2, k1, k2, k3, k4, k5⟩ := readsM_errors sr hl hne ps s1 hp
  have h5 := h3.more k2
  refine ⟨run, rs, s2, h1, ?_, k4, k5, depthList (us1 ++ us2), fun fuel hf => ?_⟩
  · rw [SimpleReader.readsM, bind_ok (attempt_run h2), bind_ok k1]
    rfl
  · obtain ⟨d1, d2⟩ := destroyed h5 fuel hf
    exact ⟨_, d1, st1 ++ st2, by rw [List.length_append]; omega, d2⟩

end Mp4
