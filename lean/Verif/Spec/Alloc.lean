import Verif.Model.Alloc
import Verif.Spec.Held

/-! # What an allocator that refuses may change -/

namespace Mp4.Spec

/-- The allocator `g` grants all of the requests, made one after the other after those in the first list. -/
def Granted (g : A.Policy) : List Nat → List Nat → Prop
  | _, [] => True
  | before, n :: l => g before n = true ∧ Granted g (before ++ [n]) l

/-- The last of the requests is the first that the allocator `g` refuses. -/
def RefusedAtLast (g : A.Policy) (before log : List Nat) : Prop :=
  ∃ granted n, log = granted ++ [n] ∧ Granted g before granted ∧ g (before ++ granted) n = false

end Mp4.Spec
