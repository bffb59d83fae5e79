import Verif.Lemmas.MemoryFaststart
import Verif.Spec.Memory

/-! # C75: the objects a writer creates -/

namespace Mp4
open Mem Mem.ATree

/-- **C75** Any calls on a new `SimpleWriter` until the first exception, and its destructor, on the heap, on any device: no object is
accessed that does not exist (any more), none is deleted twice (`r` would be that error, or the destructor would not return), and the outcome
is that of the model on values: the same exception, or the same stream and members, with `moov` as its tree in memory.  The destructor
leaves no object behind, not even after an exception, unless it was thrown by `writeFtypBox` or `writeFreeBoxAndMdatHeader`: then it leaves
at most three, those of the `ftyp` or `free` box that was being written. -/
theorem C75_simple (dev : Device) (os : OStream) (ftyp : Ftyp) (ts : BitVec 32) (dur now : BitVec 64) (calls : List FaultySimple.Step)
    (fuel : Nat) (hf : 16 ≤ fuel) :
    ∃ r s s', FaultySimple.programM fuel dev os ftyp ts dur now calls {} = some (r, s) ∧
      destroyWriterM fuel s = some (.ok (), s') ∧
      match (FaultySimple.new dev os ftyp ts dur now).steps calls with
      | .ok x => (∃ z, r = .ok z ∧ { z with w := { z.w with moov := x.w.moov } } = x) ∧
          (∃ a, s.moov = some a ∧ load fuel a s = some (.ok x.w.moov, s)) ∧ ∀ a, s'.cell a = none
      | .error e => r = .error e ∧ ((∀ a, s'.cell a = none) ∨ ∃ c, (FaultySimple.new dev os ftyp ts dur now).thrower calls = some c ∧
          (c = .writeFtypBox ∨ c = .writeFreeBoxAndMdatHeader) ∧ ∃ l : List Nat, l.length ≤ 3 ∧ ∀ a, s'.cell a ≠ none → a ∈ l) := by
  obtain ⟨s0, t0, h1, h2⟩ := newMoov_own (s := {}) (st := []) (fun x hx => absurd rfl hx) (newMvhd now ts dur 1)
  have h3 := FaultySimple.steps_sim fuel hf calls h2 (FaultySimple.new dev os ftyp ts dur now)
  have e1 : (FaultySimple.new dev os ftyp ts dur now).withMoov (newMoov (newMvhd now ts dur 1)) = FaultySimple.new dev os ftyp ts dur now := rfl
  rw [e1] at h3
  have hrun : FaultySimple.programM fuel dev os ftyp ts dur now calls {} = (FaultySimple.new dev os ftyp ts dur now).stepsM fuel calls s0 := by
    unfold FaultySimple.programM
    have : FaultySimple.newM dev os ftyp ts dur now {} = some (.ok (FaultySimple.new dev os ftyp ts dur now), s0) := by
      unfold FaultySimple.newM
      rw [bind_ok h1, pure_run]
    rw [bind_ok this]
  rw [hrun]
  cases hs : (FaultySimple.new dev os ftyp ts dur now).steps calls with
  | error e =>
    rw [hs] at h3
    obtain ⟨s1, t1, u1, st, k1, k2, k3, k4⟩ := h3
    obtain ⟨s2, d1, d2⟩ := Owns.destroyed (o := some u1) ⟨t1, k2⟩ fuel (by omega)
    refine ⟨_, s1, s2, k1, d1, rfl, ?_⟩
    cases st with
    | nil => exact .inl fun a => Classical.byContradiction fun hc => nomatch d2 a hc
    | cons x st =>
      refine .inr ?_
      rcases k4 (by simp) with h | h
      · exact ⟨_, h, .inl rfl, x :: st, k3, d2⟩
      · exact ⟨_, h, .inr rfl, x :: st, k3, d2⟩
  | ok x =>
    rw [hs] at h3
    obtain ⟨z, s1, t1, k1, k2, k3⟩ := h3
    obtain ⟨s2, d1, d2⟩ := Owns.destroyed (o := some x.w.moov) ⟨t1, k2⟩ fuel (by omega)
    have hd := k2.depth
    exact ⟨_, s1, s2, k1, d1, ⟨z, rfl, k3⟩, ⟨_, k2.moov, load_ok _ _ _ _ k2.holds (by omega)⟩,
      fun a => Classical.byContradiction fun hc => nomatch d2 a hc⟩

/-- **C75** The same for `FaststartWriter`, whose `appendTrakAndUdtaBoxInfo` deletes and builds `moov` in every round. -/
theorem C75_faststart (dev : Device) (os : OStream) (ftyp : Ftyp) (ts : BitVec 32) (dur now : BitVec 64) (calls : List FaultyFaststart.Step)
    (fuel : Nat) (hf : 16 ≤ fuel) :
    ∃ r s s', (FaultyFaststart.new dev os ftyp ts dur now).stepsM fuel calls {} = some (r, s) ∧
      destroyWriterM fuel s = some (.ok (), s') ∧
      match (FaultyFaststart.new dev os ftyp ts dur now).steps calls with
      | .ok x => (∃ z, r = .ok z ∧ { z with w := { z.w with moov := x.w.moov } } = x) ∧
          (match x.w.moov with
            | none => s.moov = none
            | some u => ∃ a, s.moov = some a ∧ load fuel a s = some (.ok u, s)) ∧ ∀ a, s'.cell a = none
      | .error e => r = .error e ∧ ((∀ a, s'.cell a = none) ∨ (FaultyFaststart.new dev os ftyp ts dur now).thrower calls = some .writeFtypBox ∧
          ∃ l : List Nat, l.length ≤ 3 ∧ ∀ a, s'.cell a ≠ none → a ∈ l) := by
  have h2 : Owns ({} : State) [] none := ⟨fun x hx => absurd rfl hx, rfl, rfl⟩
  have h3 := FaultyFaststart.steps_sim fuel hf calls h2 (FaultyFaststart.new dev os ftyp ts dur now)
  have e1 : (FaultyFaststart.new dev os ftyp ts dur now).withMoov none = FaultyFaststart.new dev os ftyp ts dur now := rfl
  rw [e1] at h3
  cases hs : (FaultyFaststart.new dev os ftyp ts dur now).steps calls with
  | error e =>
    rw [hs] at h3
    obtain ⟨s1, o, st, k1, k2, k3, k4⟩ := h3
    obtain ⟨s2, d1, d2⟩ := k2.destroyed fuel (by omega)
    refine ⟨_, s1, s2, k1, d1, rfl, ?_⟩
    cases st with
    | nil => exact .inl fun a => Classical.byContradiction fun hc => nomatch d2 a hc
    | cons x st => exact .inr ⟨k4 (by simp), x :: st, k3, d2⟩
  | ok x =>
    rw [hs] at h3
    obtain ⟨z, s1, k1, k2, k3⟩ := h3
    obtain ⟨s2, d1, d2⟩ := k2.destroyed fuel (by omega)
    refine ⟨_, s1, s2, k1, d1, ⟨z, rfl, k3⟩, ?_, fun a => Classical.byContradiction fun hc => nomatch d2 a hc⟩
    generalize x.w.moov = o at k2
    cases o with
    | none => exact k2.2.1
    | some u =>
      obtain ⟨t, k2⟩ := k2
      have hd := k2.depth
      exact ⟨_, k2.moov, load_ok _ _ _ _ k2.holds (by omega)⟩

/-- **C75** A program of its own: any tree of boxes is built by constructors, measured, written to any device and deleted.  Seen through the
pointers every step is the one of the model on values; whether or not writing throws, one `delete` of the top deletes everything once. -/
theorem C75_tree (dev : Device) (u : Tree) (offset : Nat) (str : FStream) (fuel : Nat) (hf : 2 * u.depth ≤ fuel) :
    ∃ a s1 n u2 s2 s3 s4, buildM none u {} = some (.ok a, s1) ∧ load fuel a s1 = some (.ok (u.placed [] false), s1) ∧
      adjustM fuel a offset s1 = some (.ok n, s2) ∧ (u.placed [] false).adjustOffsetAndSize offset = some (n, u2) ∧
      load fuel a s2 = some (.ok u2, s2) ∧
      writeM dev fuel a str s2 = some (match (u2.writeF dev str).1 with | .error e => .error e | .ok _ => .ok (u2.writeF dev str).2.2, s3) ∧
      load fuel a s3 = some (.ok (u2.writeF dev str).2.1, s3) ∧
      deleteInfo fuel a s3 = some (.ok (), s4) ∧ ∀ x, s4.cell x = none := by
  obtain ⟨s1, t, a1, a2, a3, ts, ht⟩ := build_sim u {} none [] false ⟨rfl, rfl⟩
  have haddr : addrsList [t] = addrs t := by rw [addrsList, addrsList, List.append_nil]
  have hnew : ∀ x, x ∈ addrs t ↔ ({} : State).next ≤ x ∧ x < s1.next := by
    intro x; have := a2.new x; rwa [haddr] at this
  have hfine : Fine s1 (addrs t) := ⟨by have := a2.nodup; rwa [haddr] at this, fun x hx => ((hnew x).mp hx).2⟩
  have hu : (u.placed [] false).depth = u.depth := by rw [holds_depth t _ a2.holds.1, a3]
  obtain ⟨u2, h1, -, h3⟩ := Tree.adjustOffsetAndSize_ends (u.placed [] false) offset
  obtain ⟨s2, t', b1, b2, b3, b4, b5⟩ := adjust_sim fuel t _ s1 offset _ u2 a2.holds.1 hfine (h3 fuel (by rw [hu]; exact hf))
  have hdt : depth t' = u.depth := by rw [Grown.depth _ _ b3, a3]
  obtain ⟨s3, c1, c2, c3, c4⟩ := write_sim dev t' u2 s2 fuel str b2 b4 (by omega)
  have hrt : root t' = root t := Grown.root b3
  rw [hrt] at c1
  refine ⟨root t, s1, _, u2, s2, s3, s3.clear (addrs t'), a1, load_ok t _ s1 fuel a2.holds.1 (by omega), b1, h1, ?_, c1, ?_, ?_, ?_⟩
  · rw [← hrt]; exact load_ok t' _ s2 fuel b2 (by omega)
  · rw [← hrt]; exact load_ok t' _ s3 fuel c2 (by omega)
  · rw [← hrt]; exact deleteInfo_ok t' s3 fuel (Holds.rep _ _ c2) b4.1 (by omega)
  · intro x
    by_cases hm : x ∈ addrs t'
    · show (if x ∈ addrs t' then none else s3.cell x) = none
      rw [if_pos hm]
    · rw [clear_other hm, c3.out x hm, b5.out x hm]
      have hx : x ∉ addrs t := fun h => hm (b5.sub x h)
      by_cases hlt : x < s1.next
      · exact absurd ((hnew x).mpr ⟨Nat.zero_le _, hlt⟩) hx
      · rw [a2.above x (by omega)]

end Mp4
