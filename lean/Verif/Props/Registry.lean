import Verif.Props.Basics
import Verif.Spec.Registry

/-! # C49: the registrations of the library -/

namespace Mp4

private theorem register_addAll : stdBoxMap = addAll (boxTable.map fun e => (e.2.1, e.1, e.2.2)) := by
  rw [stdBoxMap, register_box_map, addAll, List.foldl_map]

private theorem table_ok : ∀ e ∈ boxTable, lastDef (boxTable.map fun e => (e.2.1, e.1, e.2.2)) e.1 = Spec.registered e.1 := by
  decide +kernel

private theorem spec_in_table : ∀ g ∈ Spec.registry, ∀ t ∈ g.2.2, t ∈ boxTable.map (·.1) := by decide +kernel

private theorem lastDef_std (t : BoxType) :
    lastDef (boxTable.map fun e => (e.2.1, e.1, e.2.2)) t = Spec.registered t := by
  by_cases h : t ∈ boxTable.map (·.1)
  · obtain ⟨e, he, rfl⟩ := List.mem_map.mp h
    exact table_ok e he
  · have h1 : lastDef (boxTable.map fun e => (e.2.1, e.1, e.2.2)) t = none := by
      rw [lastDef, Option.map_eq_none_iff, List.find?_eq_none]
      intro x hx
      simp only [List.mem_reverse, List.mem_map] at hx
      obtain ⟨e, he, rfl⟩ := hx
      simp only [decide_eq_true_eq]
      intro hc
      exact h (List.mem_map.mpr ⟨e, he, hc⟩)
    rw [h1, eq_comm, Spec.registered, Option.map_eq_none_iff, List.find?_eq_none]
    intro g hg hc
    exact h (spec_in_table g hg t (by simpa using hc))

/-- **C49 (the library's own registrations).** Of all 2^32 types, exactly those of the table in `Spec.Registry` are known
to the reader, each with its class and versions. -/
theorem C49_registered (t : BoxType) (ver : Byte) :
    stdBoxMap.getBoxInstance t = (match Spec.registered t with | none => .unsupported | some d => .known d.1 t) ∧
    stdBoxMap.isSupported t = (Spec.registered t).isSome ∧
    (stdBoxMap.isSupportedVersion t ver = true ↔ ∃ d, Spec.registered t = some d ∧ (d.2 = [] ∨ ver ∈ d.2)) ∧
    (match Spec.registered t with
      | none => ∃ e, stdBoxMap.getSupportedVersions t = .error (.exc e)
      | some d => stdBoxMap.getSupportedVersions t = .ok d.2) := by
  have h := C49_box_map (boxTable.map fun e => (e.2.1, e.1, e.2.2)) t ver
  rw [lastDef_std, ← register_addAll] at h
  generalize Spec.registered t = o at h
  cases o <;> exact h

example : Spec.registered (fourcc "co64") = some (.co64, [0]) := by decide +kernel
example : Spec.registered ⟨0xa9, 0x74, 0x6f, 0x6f⟩ = some (.empty, []) := by decide +kernel
example : Spec.registered (fourcc "hev1") = none := by decide +kernel
/-- No type is listed twice. -/
example : (Spec.registry.flatMap (·.2.2)).Nodup := by decide +kernel

end Mp4
