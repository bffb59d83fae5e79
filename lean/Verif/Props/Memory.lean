import Verif.Lemmas.MemoryReader
import Verif.Props.Reader

/-! # C74: the objects a reader creates -/

namespace Mp4
open Mem Mem.ATree

theorem wf_root : WfParent ({} : State) none [] false := ⟨rfl, rfl⟩

theorem attached_root (rs : List Nat) : (attached ({} : State) none rs).boxes = rs := rfl

/-- The state after `~SimpleReader`. -/
theorem destroyed {s : State} {ts : List ATree} {st : List Nat} (h : Ext {} s none ts st) (fuel : Nat) (hf : depthList ts ≤ fuel) :
    SimpleReader.destroyM fuel s = some (.ok (), s.clear (addrsList ts)) ∧
      ∀ a, (s.clear (addrsList ts)).cell a ≠ none → a ∈ st := by
  refine ⟨?_, ?_⟩
  · unfold SimpleReader.destroyM
    rw [h.boxes, attached_root]
    exact deleteInfos_ok ts s fuel h.rep (List.nodup_append.mp h.nodup).1 hf
  · intro a ha
    unfold State.clear at ha
    dsimp only at ha
    split at ha
    · exact absurd rfl ha
    · rename_i hn
      by_cases hlt : a < s.next
      · have := (h.new a).mpr ⟨Nat.zero_le _, hlt⟩
        rcases List.mem_append.mp this with h1 | h1
        · exact absurd h1 hn
        · exact h1
      · exact absurd (h.above (fun x _ => rfl) a (by omega)) ha

/-- **C74** `read` of a `SimpleReader` followed by its destructor, on the heap, for every file whatsoever: no object is accessed that does
not exist (any more), none is deleted twice, and the boxes printed and the exception thrown are those of the model on values (the one the other
claims are about).  When `read` returns, the destructor leaves no object behind; when it throws, at most one, the header of a box that is
larger than the file. -/
theorem C74_reader (sr : SimpleReader) (hl : sr.data.length < 2 ^ 63) :
    ∃ run s, sr.read = some run ∧ sr.readM (sr.data.length + 2) {} = some (run.res, s) ∧
      ∃ n, ∀ fuel, n ≤ fuel → ∃ s', SimpleReader.destroyM fuel s = some (.ok (), s') ∧
        (∀ ts, run.res = .ok ts → ∀ a, s'.cell a = none) ∧
        (∀ e, run.res = .error e → (∀ a, s'.cell a = none) ∨
          e = .exc "corrupt file? box data size is greater than remaining_size" ∧
            ∃ h hd, ∀ a, s'.cell a = if a = h then some (.header hd) else none) := by
  obtain ⟨run, hrun, -⟩ := C28_terminates sr hl
  have hsim := loop_sim (fun pos s => readBox_sim sr (sr.data.length + 2) none [] false pos s) sr.data.length (sr.data.length + 2) 0 0 {} wf_root
  have hrd : sr.read = some run := hrun
  unfold SimpleReader.read SimpleReader.readWith at hrun
  unfold SimpleReader.readM
  generalize SimpleReader.readLoop (sr.readBox (sr.data.length + 2) [] false) sr.data.length (sr.data.length + 2) 0 0 = r at hrun hsim
  rcases r with _ | ⟨vs, e | ⟨ts, pos⟩⟩
  · cases hrun
  · cases hrun
    obtain ⟨s, us, st, h1, h2, h3⟩ := hsim
    refine ⟨_, s, hrd, bind_error h1, depthList us, fun fuel hf => ?_⟩
    obtain ⟨h4, h5⟩ := destroyed h2 fuel hf
    refine ⟨_, h4, fun ts hts => (by cases hts), fun e' he' => ?_⟩
    cases he'
    rcases h3 with rfl | ⟨h, hd, rfl, h6, h7⟩
    · exact .inl fun a => Classical.byContradiction fun hc => nomatch h5 a hc
    · refine .inr ⟨h7, h, hd, fun a => ?_⟩
      by_cases ha : a = h
      · rw [if_pos ha, ha, clear_other, h6]
        intro hm
        exact (List.nodup_append.mp h2.nodup).2.2 h hm h (by simp) rfl
      · rw [if_neg ha]
        refine Classical.byContradiction fun hc => ?_
        exact ha (List.mem_singleton.mp (h5 a hc))
  · cases hrun
    obtain ⟨s, us, h1, h2, h3, h4⟩ := hsim
    refine ⟨_, s, hrd, ?_, depthList us, fun fuel hf => ?_⟩
    · rw [bind_ok h1]
      unfold SimpleReader.printM
      rw [h2.boxes, attached_root]
      exact loads_ok us ts s _ h3 h4
    · obtain ⟨h5, h6⟩ := destroyed h2 fuel hf
      exact ⟨_, h5, fun ts _ a => Classical.byContradiction (fun hc => nomatch h6 a hc), fun e he => (by cases he)⟩

end Mp4
