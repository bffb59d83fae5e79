import Verif.Spec.Intermediate
import Verif.Lemmas.Faults

/-! # Lemmas about the intermediate file -/

namespace Mp4
open Spec

namespace Interm

/-- What the loop of `copyMdatData` does to the object. -/
structure Rounds (i : Interm) (b : Bool) (j : Interm) : Prop where
  libc : j.libc = i.libc
  present : j.present = i.present
  isOpen : j.isOpen = i.isOpen
  dev : j.x.dev = i.x.dev
  content : j.x.w.mdat.content = i.x.w.mdat.content
  size : j.x.w.mdat_data_size = i.x.w.mdat_data_size
  good : j.x.s.good = i.x.s.good
  atEnd : j.x.w.mdat.eof = true → j.x.w.mdat.pos = i.x.w.mdat.content.length
  chunks : ∃ cs : List (List Byte), j.x.s = cs.foldl (fun s c => s.copyOut i.x.dev c) i.x.s ∧
    cs.flatten = slice i.x.w.mdat.content i.x.w.mdat.pos (j.x.w.mdat.pos - i.x.w.mdat.pos) ∧
    i.x.w.mdat.pos ≤ j.x.w.mdat.pos ∧ j.x.w.mdat.pos ≤ i.x.w.mdat.content.length
  done : b = true → j.x.w.mdat.eof = true
  fine : b = true → i.x.w.mdat.eof = false → i.x.s.good = true
  broken : b = false → i.x.s.good = false ∧ j.reading = !j.x.w.mdat.eof

theorem slice_append {l : List Byte} {p a b : Nat} : slice l p a ++ slice l (p + a) b = slice l p (a + b) := by
  simp only [slice]
  rw [List.take_add, List.drop_drop]

theorem copyRounds_spec (n : Nat) : ∀ (i : Interm) (b : Bool) (j : Interm), i.x.w.mdat.pos ≤ i.x.w.mdat.content.length →
    (i.x.w.mdat.eof = true → i.x.w.mdat.pos = i.x.w.mdat.content.length) → copyRounds n i = some (b, j) → Rounds i b j := by
  induction n with
  | zero => intro i b j _ _ h; simp [copyRounds] at h
  | succ n ih =>
    intro i b j hp he h
    rw [copyRounds] at h
    by_cases hE : i.x.w.mdat.eof = true
    · rw [if_pos hE] at h
      obtain ⟨rfl, rfl⟩ := Prod.mk.inj (Option.some.inj h)
      exact ⟨rfl, rfl, rfl, rfl, rfl, rfl, rfl, he, ⟨[], rfl, by simp [slice], Nat.le_refl _, hp⟩, fun _ => hE,
        (fun _ h => absurd (hE.symm.trans h) (by decide)), fun h => by cases h⟩
    · rw [if_neg hE] at h
      generalize hK : COPY_MDAT_DATA_BUFFER_SIZE = K at h
      generalize hbf : (if i.libc.fread i.clock then i.x.w.mdat.fread K else ([], i.x.w.mdat)) = bf at h
      obtain ⟨buf, f⟩ := bf
      have hf : f.content = i.x.w.mdat.content ∧ buf = slice i.x.w.mdat.content i.x.w.mdat.pos (f.pos - i.x.w.mdat.pos) ∧
          i.x.w.mdat.pos ≤ f.pos ∧ f.pos ≤ f.content.length ∧ (f.eof = true → f.pos = f.content.length) := by
        by_cases hr : i.libc.fread i.clock = true
        · rw [if_pos hr] at hbf
          obtain ⟨rfl, rfl⟩ := Prod.mk.inj hbf
          simp only [slice, List.length_take, List.length_drop]
          refine ⟨trivial, ?_, by omega, by omega, ?_⟩
          · rw [Nat.add_sub_cancel_left]
            by_cases hk : K ≤ i.x.w.mdat.content.length - i.x.w.mdat.pos
            · rw [Nat.min_eq_left hk]
            · rw [Nat.min_eq_right (by omega), List.take_of_length_le (by rw [List.length_drop]; omega),
                List.take_of_length_le (by rw [List.length_drop]; omega)]
          · intro h'
            simp only [Bool.or_eq_true, decide_eq_true_eq] at h'
            rcases h' with h' | h'
            · exact absurd h' hE
            · omega
        · rw [if_neg hr] at hbf
          obtain ⟨rfl, rfl⟩ := Prod.mk.inj hbf
          exact ⟨rfl, by simp [slice], Nat.le_refl _, hp, he⟩
      obtain ⟨f1, f2, f3, f4, f5⟩ := hf
      dsimp only at h
      by_cases hg : (i.x.s.copyOut i.x.dev buf).good = true
      · rw [if_pos hg] at h
        have R := ih _ b j (by exact f4) (by exact f5) h
        obtain ⟨cs, c1, c2, c3, c4⟩ := R.chunks
        refine ⟨R.libc, R.present, R.isOpen, R.dev, R.content.trans f1, R.size, R.good.trans (FStream.copyOut_good _ _ _),
          fun h' => (R.atEnd h').trans (by rw [← f1]), ⟨buf :: cs, ?_, ?_, ?_, ?_⟩, R.done,
          (fun _ _ => (FStream.copyOut_good _ _ _).symm.trans hg), fun h' => ?_⟩
        · exact c1
        · rw [List.flatten_cons, c2, f2]
          show _ ++ slice f.content f.pos _ = _
          rw [f1]
          have c3' : f.pos ≤ j.x.w.mdat.pos := c3
          have e : f.pos = i.x.w.mdat.pos + (f.pos - i.x.w.mdat.pos) := by omega
          conv => lhs; rhs; rw [show f.pos = i.x.w.mdat.pos + (f.pos - i.x.w.mdat.pos) from e]
          rw [slice_append]
          congr 1
          omega
        · exact Nat.le_trans f3 c3
        · rw [← f1]; exact c4
        · have := (R.broken h').1
          exact absurd (hg.symm.trans this) (by decide)
      · rw [if_neg hg] at h
        obtain ⟨rfl, rfl⟩ := Prod.mk.inj (Option.some.inj h)
        have hgi : i.x.s.good = false := by
          rw [FStream.copyOut_good] at hg
          exact Bool.eq_false_iff.mpr hg
        refine ⟨rfl, rfl, rfl, rfl, f1, rfl, FStream.copyOut_good _ _ _, fun h' => ?_, ⟨[buf], rfl, ?_, f3, ?_⟩,
          (fun h => by cases h), (fun h => by cases h), fun _ => ⟨hgi, rfl⟩⟩
        · rw [← f1]; exact f5 h'
        · rw [List.flatten_cons, List.flatten_nil, List.append_nil]; exact f2
        · rw [← f1]; exact f4

/-- A larger bound does not change the result of the loop. -/
theorem copyRounds_mono (n : Nat) : ∀ (i : Interm) (r : Bool × Interm) (m : Nat), n ≤ m → copyRounds n i = some r → copyRounds m i = some r := by
  induction n with
  | zero => intro i r m _ h; simp [copyRounds] at h
  | succ n ih =>
    intro i r m hm h
    obtain ⟨m, rfl⟩ : ∃ k, m = k + 1 := ⟨m - 1, by omega⟩
    rw [copyRounds] at h ⊢
    by_cases hE : i.x.w.mdat.eof = true
    · rw [if_pos hE] at h ⊢; exact h
    · rw [if_neg hE] at h ⊢
      generalize (if i.libc.fread i.clock then i.x.w.mdat.fread COPY_MDAT_DATA_BUFFER_SIZE else ([], i.x.w.mdat)) = bf at h ⊢
      obtain ⟨buf, f⟩ := bf
      dsimp only at h ⊢
      by_cases hg : (i.x.s.copyOut i.x.dev buf).good = true
      · rw [if_pos hg] at h ⊢
        exact ih _ _ _ (by omega) h
      · rw [if_neg hg] at h ⊢
        exact h

theorem copyMdatData_mono {n m : Nat} {i : Interm} {r : Outcome × Interm} (hm : n ≤ m) (h : i.copyMdatData n = some r) :
    i.copyMdatData m = some r := by
  rw [copyMdatData] at h ⊢
  split
  · rw [if_pos ‹_›] at h; exact h
  · rw [if_neg ‹_›] at h
    split
    · rw [if_pos ‹_›] at h; exact h
    · rw [if_neg ‹_›] at h
      generalize hi : ({ i.tick with reading := false, x := { i.x with w := { i.x.w with mdat := i.x.w.mdat.rewind } } } : Interm) = i' at h ⊢
      cases hc : copyRounds n i' with
      | none => rw [hc] at h; cases h
      | some q => rw [copyRounds_mono n i' q m hm hc]; rw [hc] at h; exact h

/-- How `copyMdatData` can end. -/
inductive Copy (i : Interm) : Outcome → Interm → Prop
  | closed : i.isOpen = false → Copy i (.undefined "fseek on a closed FILE") i
  | noSeek : i.isOpen = true → Copy i (.threw "fseek failed" 0) i.tick
  | broken {j : Interm} : i.isOpen = true →
      Rounds { i.tick with reading := false, x := { i.x with w := { i.x.w with mdat := i.x.w.mdat.rewind } } } false j →
      Copy i (.threw "FaststartWriter::copyMdatData(): copying mdat data failed" 0) j
  | noClose {j : Interm} : i.isOpen = true →
      Rounds { i.tick with reading := false, x := { i.x with w := { i.x.w with mdat := i.x.w.mdat.rewind } } } true j →
      Copy i (.threw "FaststartWriter::copyMdatData(): cannot close the intermediate file" 0) { j.tick with isOpen := false }
  | noRemove {j : Interm} : i.isOpen = true →
      Rounds { i.tick with reading := false, x := { i.x with w := { i.x.w with mdat := i.x.w.mdat.rewind } } } true j →
      Copy i (.threw "FaststartWriter::deleteIntermediateFile(): cannot remove the intermediate file" 0) { j.tick.tick with isOpen := false }
  | returned {j : Interm} : i.isOpen = true → i.present = true →
      Rounds { i.tick with reading := false, x := { i.x with w := { i.x.w with mdat := i.x.w.mdat.rewind } } } true j →
      Copy i (.returned none) { j.tick.tick with isOpen := false, present := false }

theorem copy_cases {n : Nat} {i : Interm} {o : Outcome} {j : Interm} (h : i.copyMdatData n = some (o, j)) : Copy i o j := by
  rw [copyMdatData] at h
  by_cases hO : i.isOpen = false
  · rw [if_pos hO] at h
    obtain ⟨rfl, rfl⟩ := Prod.mk.inj (Option.some.inj h)
    exact .closed hO
  · rw [if_neg hO] at h
    have hO' : i.isOpen = true := by simpa using hO
    by_cases hS : i.libc.fseek i.clock = false
    · rw [if_pos hS] at h
      obtain ⟨rfl, rfl⟩ := Prod.mk.inj (Option.some.inj h)
      exact .noSeek hO'
    · rw [if_neg hS] at h
      generalize hi : ({ i.tick with reading := false, x := { i.x with w := { i.x.w with mdat := i.x.w.mdat.rewind } } } : Interm) = i' at h
      have hR : ∀ b k, copyRounds n i' = some (b, k) → Rounds i' b k := by
        intro b k hk
        refine copyRounds_spec n i' b k ?_ ?_ hk
        · rw [← hi]; exact Nat.zero_le _
        · rw [← hi]; intro h; cases h
      cases hc : copyRounds n i' with
      | none => rw [hc] at h; cases h
      | some q =>
        obtain ⟨b, k⟩ := q
        have R := hR b k hc
        rw [hc] at h
        cases b with
        | false =>
          obtain ⟨rfl, rfl⟩ := Prod.mk.inj (Option.some.inj h)
          exact .broken hO' (by rw [hi]; exact R)
        | true =>
          dsimp only at h
          by_cases hF : k.libc.fclose k.clock = false
          · rw [if_pos hF] at h
            obtain ⟨rfl, rfl⟩ := Prod.mk.inj (Option.some.inj h)
            exact .noClose hO' (by rw [hi]; exact R)
          · rw [if_neg hF] at h
            rw [deleteIntermediateFile] at h
            split at h
            · obtain ⟨rfl, rfl⟩ := Prod.mk.inj (Option.some.inj h)
              have hp : i.present = true := by
                have : k.present = true := by simp [tick] at *; simp [*]
                rw [R.present, ← hi] at this; exact this
              exact .returned (j := k) hO' hp (by rw [hi]; exact R)
            · obtain ⟨rfl, rfl⟩ := Prod.mk.inj (Option.some.inj h)
              exact .noRemove (j := k) hO' (by rw [hi]; exact R)

/-- The loop ends when no read fails from some call on. -/
theorem copyRounds_ends (T : Nat) (i : Interm) (hr : ∀ t, T ≤ t → i.libc.fread t = true) (hp : i.x.w.mdat.pos ≤ i.x.w.mdat.content.length) :
    ∃ n r, copyRounds n i = some r := by
  generalize hm : (T - i.clock) + (i.x.w.mdat.content.length - i.x.w.mdat.pos) + (if i.x.w.mdat.eof then 0 else 1) = m
  induction m using Nat.strongRecOn generalizing i with
  | ind m ih =>
    by_cases hE : i.x.w.mdat.eof = true
    · exact ⟨1, (true, i), by rw [copyRounds, if_pos hE]⟩
    · by_cases hfr : i.libc.fread i.clock = true
      · have hK : 0 < COPY_MDAT_DATA_BUFFER_SIZE := by decide
        generalize hKe : COPY_MDAT_DATA_BUFFER_SIZE = K at hK
        generalize hbf : i.x.w.mdat.fread K = bf
        obtain ⟨buf, f⟩ := bf
        have hf : f.content = i.x.w.mdat.content ∧ f.pos ≤ f.content.length ∧ i.x.w.mdat.pos ≤ f.pos ∧
            (f.eof = true ∨ i.x.w.mdat.pos < f.pos) := by
          obtain ⟨rfl, rfl⟩ := Prod.mk.inj hbf
          simp only [slice, List.length_take, List.length_drop, Bool.or_eq_true, decide_eq_true_eq]
          refine ⟨trivial, by omega, by omega, by omega⟩
        obtain ⟨f1, f2, f3, f4⟩ := hf
        have hstep : ∀ n, copyRounds (n + 1) i =
            (if (i.x.s.copyOut i.x.dev buf).good then copyRounds n { i.tick with reading := !f.eof, x := { i.x with w := { i.x.w with mdat := f }, s := i.x.s.copyOut i.x.dev buf } }
             else some (false, { i.tick with reading := !f.eof, x := { i.x with w := { i.x.w with mdat := f }, s := i.x.s.copyOut i.x.dev buf } })) := by
          intro n
          rw [copyRounds, if_neg hE, if_pos hfr, hKe, hbf]
        by_cases hg : (i.x.s.copyOut i.x.dev buf).good = true
        · obtain ⟨n, r, h⟩ := ih ((T - (i.clock + 1)) + (f.content.length - f.pos) + (if f.eof then 0 else 1)) (by
              rw [if_neg hE] at hm
              rw [f1]
              rcases f4 with f4 | f4
              · rw [f4, if_pos rfl]; omega
              · have : (if f.eof = true then 0 else 1) ≤ 1 := by split <;> omega
                rw [f1] at f2
                omega)
            { i.tick with reading := !f.eof, x := { i.x with w := { i.x.w with mdat := f }, s := i.x.s.copyOut i.x.dev buf } } hr f2 rfl
          exact ⟨n + 1, r, by rw [hstep, if_pos hg]; exact h⟩
        · exact ⟨1, _, by rw [hstep, if_neg hg]⟩
      · have hlt : i.clock < T := by
          rcases Nat.lt_or_ge i.clock T with h | h
          · exact h
          · exact absurd (hr _ h) hfr
        have hstep : ∀ n, copyRounds (n + 1) i =
            (if i.x.s.good then copyRounds n { i.tick with reading := !i.x.w.mdat.eof, x := { i.x with w := { i.x.w with mdat := i.x.w.mdat }, s := i.x.s } }
             else some (false, { i.tick with reading := !i.x.w.mdat.eof, x := { i.x with w := { i.x.w with mdat := i.x.w.mdat }, s := i.x.s } })) := by
          intro n
          rw [copyRounds, if_neg hE, if_neg hfr]
          rfl
        by_cases hg : i.x.s.good = true
        · obtain ⟨n, r, h⟩ := ih ((T - (i.clock + 1)) + (i.x.w.mdat.content.length - i.x.w.mdat.pos) + (if i.x.w.mdat.eof then 0 else 1)) (by omega)
            { i.tick with reading := !i.x.w.mdat.eof, x := { i.x with w := { i.x.w with mdat := i.x.w.mdat }, s := i.x.s } } hr hp rfl
          exact ⟨n + 1, r, by rw [hstep, if_pos hg]; exact h⟩
        · exact ⟨1, _, by rw [hstep, if_neg hg]⟩

end Interm
end Mp4
