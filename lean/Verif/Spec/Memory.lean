import Verif.Model.Memory

/-! # The tree that building gives

The constructor of `BoxInfo` adds to what it is given: paths, and the mark on audio sample entries below `wave`. -/

namespace Mp4
namespace Tree
mutual
/-- The tree as `BoxInfo` makes it when it is built below a parent: paths computed, sample entries below `wave` marked. -/
def placed (path : List BoxType) (wave : Bool) : Tree → Tree
  | .node bx _ ls => .node ⟨bx.type, if wave then Mem.marked bx.data else bx.data, none⟩ (path ++ [bx.type])
      (placedList (path ++ [bx.type]) (decide (bx.type = fourcc "wave")) ls)
def placedList (path : List BoxType) (wave : Bool) : List Tree → List Tree
  | [] => []
  | t :: ts => placed path wave t :: placedList path wave ts
end
end Tree

end Mp4
