import Verif.Model.Dump
import Verif.Model.Construct
import Verif.Model.BoxInfo

/-! # The model passes test/box_info.cpp -/

namespace Mp4.UnitTests

/-- test/box_info.cpp:10-13: the tree made by the two `BoxInfo` constructors. -/
def box_info_tree : Option Tree :=
  match (Construction.mvhd { creation_time := 0, modification_time := 0, timescale := 1000, duration := 15000, next_track_id := 2 }).run with
  | .error _ => none
  | .ok mvhd =>
    some (.node ⟨fourcc "moov", .empty, none⟩ [fourcc "moov"] [.node mvhd [fourcc "moov", fourcc "mvhd"] []])

/-- test/box_info.cpp:14-18: `adjustOffsetAndSize(100)` and `toString()`. -/
example : (match box_info_tree with
    | none => false
    | some t =>
      match t.adjustOffsetAndSize 100 with
      | none => false
      | some (_, t) =>
        match t.toText with
        | .error _ => false
        | .ok s => decide (s = b!"[moov] Offset=100 Size=116\n  [mvhd] Offset=108 Size=108 Version=0 Flags=0x000000 CreationTime=\"1904-01-01T00:00:00Z\" ModificationTime=\"1904-01-01T00:00:00Z\" Timescale=1000 Duration=15000 Rate=1.0000 Volume=256 Matrix=[0x10000, 0x0, 0x0, 0x0, 0x10000, 0x0, 0x0, 0x0, 0x40000000] PreDefined=[0, 0, 0, 0, 0, 0] NextTrackID=2")) = true := by
  decide +kernel

end Mp4.UnitTests
