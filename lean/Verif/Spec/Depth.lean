import Verif.Model.Reader
import Verif.Spec.Tree

/-! # How deep the calls of `readBox` are nested

`SimpleReader::readBox` calls itself for every child box, so the use of the call stack is proportional to the number of calls that are
active at the same time. -/

namespace Mp4

mutual
/-- Boxes on the longest way from the root of the tree to a leaf. -/
def Tree.height : Tree → Nat
  | .node _ _ ls => Tree.heightList ls + 1
/-- The largest height; 0 if there is no tree. -/
def Tree.heightList : List Tree → Nat
  | [] => 0
  | t :: ts => max t.height (Tree.heightList ts)
end

namespace SimpleReader

/-- `SimpleReader::readBox` (src/reader/reader.cpp:47-82) on a stack with room for the given number of calls of `readBox`: `none` when
a further call would be needed.  `n` bounds the iterations of every loop. -/
def stackBox (sr : SimpleReader) (n : Nat) : Nat → List BoxType → Bool → Nat → Option (Run (Nat × Tree × Nat))
  | 0, _, _, _ => none
  | room + 1, path, wave, pos => sr.readBoxBody (sr.stackBox n room) n path wave pos

/-- `SimpleReader::read` (src/reader/reader.cpp:37-45) on a stack with room for `room` calls of `readBox`: `none` when a further call
would be needed. -/
def readStack (sr : SimpleReader) (room : Nat) : Option (Run (List Tree)) :=
  match readLoop (sr.stackBox (sr.data.length + 2) room [] false) sr.data.length (sr.data.length + 2) 0 0 with
  | none => none
  | some ⟨vs, .error e⟩ => some ⟨vs, .error e⟩
  | some ⟨vs, .ok (ts, _)⟩ => some ⟨vs, .ok ts⟩

end SimpleReader

/-- `n + 1` container boxes (`moov`), each the only child of the one before. -/
def nested : Nat → Tree
  | 0 => .node ⟨fourcc "moov", .empty, none⟩ [] []
  | n + 1 => .node ⟨fourcc "moov", .empty, none⟩ [] [nested n]

end Mp4
