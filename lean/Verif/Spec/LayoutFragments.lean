import Verif.Model.Boxes.Fragments
import Verif.Spec.LayoutVersioned

/-! # File format of the movie fragment boxes (ISO/IEC 14496-12, 8.8) -/

namespace Mp4.Layout
open Mp4

def tfhd (b : Tfhd) := fbits b.toFullBox ++ bits b.track_id ++
  onlyIf (b.checkFlag 0x1#32) (bits b.base_data_offset) ++
  onlyIf (b.checkFlag 0x2#32) (bits b.sample_description_index) ++
  onlyIf (b.checkFlag 0x8#32) (bits b.default_sample_duration) ++
  onlyIf (b.checkFlag 0x10#32) (bits b.default_sample_size) ++
  onlyIf (b.checkFlag 0x20#32) (bits b.default_sample_flags)

def tfraEntry (b : Tfra) (e : TfraEntry) := time b.toFullBox e.time ++ time b.toFullBox e.moof_offset ++
  ubits ((b.length_size_of_traf_num.toNat + 1) * 8) e.traf_number ++
  ubits ((b.length_size_of_trun_num.toNat + 1) * 8) e.trun_number ++
  ubits ((b.length_size_of_sample_num.toNat + 1) * 8) e.sample_number
def tfra (b : Tfra) := fbits b.toFullBox ++ bits b.track_id ++ ubits 26 b.reserved ++
  ubits 2 b.length_size_of_traf_num ++ ubits 2 b.length_size_of_trun_num ++ ubits 2 b.length_size_of_sample_num ++
  cbits 32 b.entries.length ++ b.entries.flatMap (tfraEntry b)

def trunEntry (fb : FullBox) (e : TrunEntry) := onlyIf (fb.checkFlag 0x100#32) (bits e.sample_duration) ++
  onlyIf (fb.checkFlag 0x200#32) (bits e.sample_size) ++ onlyIf (fb.checkFlag 0x400#32) (bits e.sample_flags) ++
  onlyIf (fb.checkFlag 0x800#32) (sbits 32 e.sample_composition_time_offset)
def trun (b : Trun) := fbits b.toFullBox ++ cbits 32 b.entries.length ++
  onlyIf (b.checkFlag 0x1#32) (bits b.data_offset) ++ onlyIf (b.checkFlag 0x4#32) (bits b.first_sample_flags) ++
  b.entries.flatMap (trunEntry b.toFullBox)

end Mp4.Layout

/-! ### Which values are representable, and what a reader object ends up with -/

namespace Mp4

/-- The fields the flags select, from `b`; the others from `old`. -/
def Tfhd.stored (b old : Tfhd) : Tfhd :=
  { toFullBox := b.toFullBox
    track_id := b.track_id
    base_data_offset := if b.checkFlag 0x1#32 then b.base_data_offset else old.base_data_offset
    sample_description_index :=
      if b.checkFlag 0x2#32 then b.sample_description_index else old.sample_description_index
    default_sample_duration :=
      if b.checkFlag 0x8#32 then b.default_sample_duration else old.default_sample_duration
    default_sample_size := if b.checkFlag 0x10#32 then b.default_sample_size else old.default_sample_size
    default_sample_flags := if b.checkFlag 0x20#32 then b.default_sample_flags else old.default_sample_flags }

/-- The three length fields have two bits each. -/
def Tfra.LengthsOk (b : Tfra) : Prop :=
  b.length_size_of_traf_num.toNat < 4 ∧ b.length_size_of_trun_num.toNat < 4 ∧
  b.length_size_of_sample_num.toNat < 4

def TfraEntry.Fits (b : Tfra) (e : TfraEntry) : Prop :=
  TimeFits b.toFullBox e.time ∧ TimeFits b.toFullBox e.moof_offset ∧
  e.traf_number.toNat < 2 ^ ((b.length_size_of_traf_num.toNat + 1) * 8) ∧
  e.trun_number.toNat < 2 ^ ((b.length_size_of_trun_num.toNat + 1) * 8) ∧
  e.sample_number.toNat < 2 ^ ((b.length_size_of_sample_num.toNat + 1) * 8)

def TrunEntry.Fits (fb : FullBox) (e : TrunEntry) : Prop := SFits 32 e.sample_composition_time_offset ∧
  (fb.checkFlag 0x100#32 = false → e.sample_duration = 0) ∧ (fb.checkFlag 0x200#32 = false → e.sample_size = 0) ∧
  (fb.checkFlag 0x400#32 = false → e.sample_flags = 0) ∧
  (fb.checkFlag 0x800#32 = false → e.sample_composition_time_offset = 0)

/-- Optional header fields from `b` if the flags select them, else from `old`. -/
def Trun.stored (b old : Trun) : Trun :=
  { b with
    data_offset := if b.checkFlag 0x1#32 then b.data_offset else old.data_offset
    first_sample_flags := if b.checkFlag 0x4#32 then b.first_sample_flags else old.first_sample_flags }

end Mp4
