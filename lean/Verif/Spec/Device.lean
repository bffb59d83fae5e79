import Verif.Model.Faults

/-! # Specification: kinds of failing devices -/

namespace Mp4

/-- A device that, having refused a byte, refuses all later bytes that do not lie before it. -/
def Device.Monotone (dev : Device) : Prop := ∀ t p t' p', dev.put t p = false → t ≤ t' → p ≤ p' → dev.put t' p' = false

/-- A device that accepts everything. -/
def Device.fine : Device := ⟨fun _ _ => true, fun _ _ => true⟩

/-- A full disk: there is room for `n` bytes. -/
def Device.full (n : Nat) : Device := ⟨fun _ p => decide (p < n), fun _ _ => true⟩

/-- A device that breaks for good after `n` accesses. -/
def Device.breaks (n : Nat) : Device := ⟨fun t _ => decide (t < n), fun t _ => decide (t < n)⟩

/-- A device that loses the accesses `a`, …, `b - 1` and works otherwise. -/
def Device.hiccup (a b : Nat) : Device := ⟨fun t _ => !(decide (a ≤ t) && decide (t < b)), fun _ _ => true⟩

end Mp4
