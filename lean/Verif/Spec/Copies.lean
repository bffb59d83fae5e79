import Verif.Spec.Depth

/-! # Copies of payloads

`SimpleReader::readBox` copies the payload of a box, with everything in it, to a string stream that lives until the box and all its children
have been read (src/reader/reader.cpp:50-58). -/

namespace Mp4

/-- Bytes copied while reading a file of `len` bytes, when these headers are read: the payload of every box that passes the check of its
size; the others are refused before the copy. -/
def Spec.copied (len : Nat) (vs : List BoxHeader) : Nat :=
  ((vs.filter fun h => decide (h.headerSize ≤ h.size ∧ h.offset + h.size ≤ len)).map fun h => h.size - h.headerSize).sum

mutual
/-- The most bytes in copies at the same time while the tree is read: its own and those of the children, one after the other. -/
def Tree.copies : Tree → Nat
  | .node b _ ls => (b.header.elim 0 fun h => h.size - h.headerSize) + Tree.copiesList ls
/-- The same for trees read one after the other. -/
def Tree.copiesList : List Tree → Nat
  | [] => 0
  | t :: ts => max t.copies (Tree.copiesList ts)
end

/-- What is said of a file: read back, its boxes are nested `n` deep; the calls of `readBox` are nested as deep, so that less room on the
stack is not enough; and the reader copies at most `n` times the bytes of the file. -/
def Spec.CheapToRead (sr : SimpleReader) (n : Nat) : Prop :=
  ∃ vs ts, sr.read = some ⟨vs, .ok ts⟩ ∧ Tree.heightList ts = n ∧
    (∀ room, sr.readStack room = if n ≤ room then some ⟨vs, .ok ts⟩ else none) ∧
    Spec.copied sr.data.length vs ≤ n * sr.data.length

end Mp4
