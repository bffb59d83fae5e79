import Verif.Model.Reader

/-! # The same boxes, further back in a file -/

namespace Mp4

/-- The header of the same box, `k` bytes further back. -/
def BoxHeader.moved (k : Nat) (h : BoxHeader) : BoxHeader := { h with offset := h.offset + k }

/-- The same box, `k` bytes further back. -/
def Box.moved (k : Nat) (b : Box) : Box := { b with header := b.header.map (BoxHeader.moved k) }

mutual
/-- The same box with everything in it, `k` bytes further back. -/
def Tree.moved (k : Nat) : Tree → Tree
  | .node box path leafs => .node (box.moved k) path (Tree.movedList k leafs)
/-- The same boxes, `k` bytes further back. -/
def Tree.movedList (k : Nat) : List Tree → List Tree
  | [] => []
  | t :: ts => t.moved k :: Tree.movedList k ts
end

namespace Spec

/-- Boxes, followed by the outcome of reading a file that begins at offset `k`. -/
def followedBy (k : Nat) (ts : List Tree) : Except Err (List Tree) → Except Err (List Tree)
  | .ok us => .ok (ts ++ Tree.movedList k us)
  | .error e => .error e

/-- Each of `files` is accepted on its own, and gives the headers and boxes next to it; none of its boxes extends to the end of the
file.  `k`: where the first of them will stand. -/
def Accepted (env : Nat → Env) (map : BoxMap Kind) : Nat → List (List Byte × List BoxHeader × List Tree) → Prop
  | _, [] => True
  | k, (d, vs, ts) :: files =>
    ({ file := false, env := fun o => env (o + k), map := map, data := d } : SimpleReader).read = some ⟨vs, .ok ts⟩ ∧
    (∀ h ∈ vs, h.extendToEof = false) ∧ Accepted env map (k + d.length) files

/-- The boxes of all files, each where its file begins in the whole. -/
def allBoxes : Nat → List (List Byte × List BoxHeader × List Tree) → List Tree
  | _, [] => []
  | k, (d, _, ts) :: files => Tree.movedList k ts ++ allBoxes (k + d.length) files

end Spec
end Mp4
