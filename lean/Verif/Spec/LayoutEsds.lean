import Verif.Model.Boxes.Esds
import Verif.Model.Boxes.Sgpd

/-! # File format of `esds` descriptors (ISO/IEC 14496-1 7.2.6) and of `sgpd` (ISO/IEC 14496-12 8.9.3) -/

namespace Mp4.Layout
open Mp4

/-- Bytes of an ES descriptor's own fields. -/
def esOwnSize (f : ESFields) : Nat :=
  3 + (if f.stream_dependence_flag then 2 else 0) + (if f.url_flag then 1 + f.url_string.length else 0) +
  (if f.ocr_stream_flag then 2 else 0)

/-- Bytes of a descriptor with its tag and length field but without sub-descriptors. -/
def flatSize : Descriptor → Nat
  | .es f _ => 5 + esOwnSize f
  | .decConfig _ _ => 18
  | .decSpecific data => 5 + data.length
  | .slConfig data => 5 + data.length

mutual
/-- The length a descriptor declares: its own fields plus its sub-descriptors, or the explicitly given size. -/
def declaredSize : Descriptor → Nat
  | .es f subs => esOwnSize f + (if f.sub_descriptors_size ≠ 0 then f.sub_descriptors_size.toNat else nestedSize subs)
  | .decConfig f subs =>
    13 + (if f.sub_descriptors_size ≠ 0 then f.sub_descriptors_size.toNat else (subs.map flatSize).sum)
  | .decSpecific data => data.length
  | .slConfig data => data.length
/-- The complete size of nested descriptors, each with tag and length field. -/
def nestedSize : List Descriptor → Nat
  | [] => 0
  | d :: ds => 5 + declaredSize d + nestedSize ds
end

/-- Tag, expandable length, fields. -/
def descriptor (d : Descriptor) : List Bool :=
  match d with
  | .es f _ => bits 3#8 ++ lenBits (BitVec.ofNat 32 (declaredSize d)) ++ bits f.ESID ++
      bbit f.stream_dependence_flag ++ bbit f.url_flag ++ bbit f.ocr_stream_flag ++ sbits 5 f.stream_priority ++
      onlyIf f.stream_dependence_flag (bits f.depends_on_esid) ++
      onlyIf f.url_flag (cbits 8 f.url_string.length ++ f.url_string.flatMap bits) ++
      onlyIf f.ocr_stream_flag (bits f.OCRESID)
  | .decConfig f _ => bits 4#8 ++ lenBits (BitVec.ofNat 32 (declaredSize d)) ++ bits f.object_type_indication ++
      sbits 6 f.stream_type ++ bbit f.upstream ++ bbit f.reserved ++ ubits 24 f.buffer_size_db ++
      bits f.max_bitrate ++ bits f.avg_bitrate
  | .decSpecific data => bits 5#8 ++ lenBits (BitVec.ofNat 32 data.length) ++ data.flatMap bits
  | .slConfig data => bits 6#8 ++ lenBits (BitVec.ofNat 32 data.length) ++ data.flatMap bits

def esds (b : Esds) := fbits b.toFullBox ++ b.descriptors.flatMap descriptor

def rollDistance (e : RollDistance) := onlyIf e.with_length (bits e.description_length) ++ bits e.roll_distance
def startupOpt (e : StartupOpt) := bits e.num_output_samples ++ bits e.num_total_samples
def startupEntry (e : StartupEntry) := onlyIf e.with_length (bits e.description_length) ++ bits e.roll_count ++
  bits e.first_output_sample ++ e.sample_offsets.flatMap bits ++ e.opts.flatMap startupOpt
def rapEntry (e : RapEntry) := onlyIf e.with_length (bits e.description_length) ++
  bbit e.num_leading_samples_known ++ ubits 7 e.num_leading_samples
def teleEntry (e : TeleEntry) := onlyIf e.with_length (bits e.description_length) ++
  bbit e.level_independently_decodable ++ ubits 7 e.reserved

/-- Version 1 carries a default length, other versions a default description index; then the entries of the
grouping type. -/
def sgpd (b : Sgpd) := fbits b.toFullBox ++ code4 b.grouping_type ++
  bits (if b.version = 1 then b.default_length else b.default_sample_description_index) ++
  (if isRoll b.grouping_type then
    cbits 32 b.roll_distances.length ++ b.roll_distances.flatMap rollDistance
  else if isAlst b.grouping_type then
    cbits 32 b.alternative_startup_entries.length ++ b.alternative_startup_entries.flatMap startupEntry
  else if isRap b.grouping_type then
    cbits 32 b.visual_random_access_entries.length ++ b.visual_random_access_entries.flatMap rapEntry
  else if isTele b.grouping_type then
    cbits 32 b.temporal_level_entries.length ++ b.temporal_level_entries.flatMap teleEntry
  else [])

end Mp4.Layout

/-! ### Which values are representable, and what a reader object ends up with -/

namespace Mp4

/-- The URL of an ES descriptor fits its one-byte length field. -/
def Descriptor.UrlOk : Descriptor → Prop
  | .es f _ => f.url_flag = true → f.url_string.length ≤ 255
  | _ => True

/-- Bit-field and length ranges of a descriptor. -/
def Descriptor.Fits (d : Descriptor) : Prop :=
  Layout.declaredSize d < 2 ^ 28 ∧
  match d with
  | .es f _ => SFits 5 f.stream_priority
  | .decConfig f _ => SFits 6 f.stream_type ∧ f.buffer_size_db.toNat < 2 ^ 24
  | _ => True

/-- The object a reader ends up with: explicit sub-descriptor size instead of the sub-descriptors themselves, and
fields absent from the file uninitialised (`g`). -/
def Descriptor.stored (g : ESJunk) (d : Descriptor) : Descriptor :=
  match d with
  | .es f _ => .es { f with
      sub_descriptors_size := BitVec.ofNat 32 (Layout.declaredSize d - Layout.esOwnSize f)
      depends_on_esid := if f.stream_dependence_flag then f.depends_on_esid else g.depends_on_esid
      url_string := if f.url_flag then f.url_string else []
      OCRESID := if f.ocr_stream_flag then f.OCRESID else g.OCRESID } []
  | .decConfig f _ => .decConfig { f with
      sub_descriptors_size := BitVec.ofNat 32 (Layout.declaredSize d - 13) } []
  | .decSpecific data => .decSpecific data
  | .slConfig data => .slConfig data

/-- An entry without an explicit length has no length value. -/
def RollDistance.Ok (e : RollDistance) (wl : Bool) : Prop :=
  e.with_length = wl ∧ (wl = false → e.description_length = 0)

/-- The counts and lengths of the entry agree with its content. -/
structure StartupEntry.Ok (e : StartupEntry) (len : BitVec 32) (wl : Bool) : Prop where
  hasLen : e.with_length = wl
  noLen : wl = false → e.description_length = 0
  rolls : e.roll_count.toNat = e.sample_offsets.length
  /-- the length that applies covers exactly the entry (and is small enough not to overflow in bits) -/
  covers : (if wl then e.description_length else len).toNat = 4 + 4 * e.sample_offsets.length + 4 * e.opts.length
  small : (if wl then e.description_length else len).toNat < 2 ^ 29

/-- Ranges of the entry. -/
def RapEntry.Ok (e : RapEntry) (wl : Bool) : Prop :=
  e.with_length = wl ∧ (wl = false → e.description_length = 0) ∧ e.num_leading_samples.toNat < 2 ^ 7

/-- Ranges of the entry. -/
def TeleEntry.Ok (e : TeleEntry) (wl : Bool) : Prop :=
  e.with_length = wl ∧ (wl = false → e.description_length = 0) ∧ e.reserved.toNat < 2 ^ 7

/-- The default length that is in force while the entries are read. -/
def Sgpd.lengthInForce (b old : Sgpd) : BitVec 32 := if b.version = 1 then b.default_length else old.default_length

/-- Entry counts and entry lengths agree with the content. -/
structure Sgpd.Ok (b old : Sgpd) : Prop where
  roll : isRoll b.grouping_type = true → b.roll_distances.length < 2 ^ 32 ∧
    ∀ e ∈ b.roll_distances, e.Ok (noDefaultLength b.version b.default_length)
  alst : isAlst b.grouping_type = true → b.alternative_startup_entries.length < 2 ^ 32 ∧
    ∀ e ∈ b.alternative_startup_entries, e.Ok (b.lengthInForce old) (noDefaultLength b.version b.default_length)
  rap : isRap b.grouping_type = true → b.visual_random_access_entries.length < 2 ^ 32 ∧
    ∀ e ∈ b.visual_random_access_entries, e.Ok (noDefaultLength b.version b.default_length)
  tele : isTele b.grouping_type = true → b.temporal_level_entries.length < 2 ^ 32 ∧
    ∀ e ∈ b.temporal_level_entries, e.Ok (noDefaultLength b.version b.default_length)

/-- What a reader object ends up with: only the entries of the grouping type are read. -/
def Sgpd.stored (b old : Sgpd) : Sgpd :=
  { toFullBox := b.toFullBox
    grouping_type := b.grouping_type
    default_length := if b.version = 1 then b.default_length else old.default_length
    default_sample_description_index :=
      if b.version = 1 then old.default_sample_description_index else b.default_sample_description_index
    roll_distances := if isRoll b.grouping_type then b.roll_distances else old.roll_distances
    alternative_startup_entries :=
      if isAlst b.grouping_type then b.alternative_startup_entries else old.alternative_startup_entries
    visual_random_access_entries :=
      if isRap b.grouping_type then b.visual_random_access_entries else old.visual_random_access_entries
    temporal_level_entries :=
      if isTele b.grouping_type then b.temporal_level_entries else old.temporal_level_entries }

end Mp4
