import Verif.Props.SameMovie
import Verif.Props.FaststartExamples

/-! # Concrete cases for C90 -/

namespace Mp4
namespace Example

open Spec (withoutOffsets)

/-- C90 applied to `good` (two tracks, three chunks): its hypothesis holds. -/
theorem good_same_movie : ∃ sS sF wS wF moovS moovF,
    SimpleWriter.session ⟨[], 0⟩ ftyp 1000 3000 1 good = .ok sS ∧ FaststartWriter.session ⟨[], 0⟩ ftyp 1000 3000 1 good = .ok sF ∧
    SimpleWriter.finish sS = .ok wS ∧ FaststartWriter.finish sF = .ok wF ∧
    wS.os.data = Tree.encodeList (Spec.simpleFile ftyp [1, 2, 3, 4, 5, 10, 11, 12, 13, 6] moovS) ∧
    wF.os.data = Tree.encodeList (Spec.faststartFile ftyp [1, 2, 3, 4, 5, 10, 11, 12, 13, 6] moovF) ∧
    withoutOffsets moovS = withoutOffsets moovF := by
  obtain ⟨sS, sF, es, samples, h1, h2, h3, h4, h5⟩ := C90_same_movie ⟨[], 0⟩ ⟨[], 0⟩ rfl rfl ftyp 1000 3000 1 good (by decide)
  have he := good_unique es h3
  subst he
  subst h4
  have hs : sF = faststartSession good := by unfold faststartSession; rw [h2]
  obtain ⟨wS, wF, moovS, moovF, k1, k2, k3, k4, k5, -⟩ := h5
    (by rw [hs]; exact Nat.lt_of_le_of_lt (m := 2000) (by decide +kernel) (by decide))
  exact ⟨sS, sF, wS, wF, moovS, moovF, h1, h2, k1, k2, k3, k4, k5⟩

/-- The number of bytes of the boxes of a tree, headers left out. -/
def sizeSum : Tree → Nat
  | .node b _ ls => b.data.getDataSize + go ls
where go : List Tree → Nat
  | [] => 0
  | t :: ts => sizeSum t + go ts

/-- Other tables are still there: with one more sample, what remains differs. -/
example : sizeSum (withoutOffsets (FaststartWriter.moovAt (faststartSession good) 100)) ≠
    sizeSum (withoutOffsets (FaststartWriter.moovAt (faststartSession (good ++ [.addData 0 99 [7] false])) 100)) := by
  decide +kernel

/-- The chunk offsets are not all that `moov` has: only one box per track is replaced. -/
example : sizeSum (withoutOffsets (FaststartWriter.moovAt (faststartSession good) 100)) + (8 + 2 * 4) + (8 + 1 * 4) =
    sizeSum (FaststartWriter.moovAt (faststartSession good) 100) := by
  decide +kernel

end Example
end Mp4
