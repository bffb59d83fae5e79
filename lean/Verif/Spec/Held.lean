import Verif.Model.Reader

/-!
# How much an object read from a file holds

What a box object holds besides its fixed fields: the elements of its vectors and strings.
-/

namespace Mp4

/-- The elements that a descriptor of an `esds` box holds (a descriptor that was read has no sub-descriptors). -/
def Descriptor.elements : Descriptor → Nat
  | .es f _ => f.url_string.length
  | .decConfig _ _ => 0
  | .decSpecific data => data.length
  | .slConfig data => data.length

/-- The number of elements (table entries, array elements, characters of strings) in all vectors and strings of a box object;
for a vector of objects that themselves hold vectors, both the objects and what they hold. -/
def BoxData.elements : BoxData → Nat
  | .elst b => b.entries.length
  | .sidx b => b.references.length
  | .stts b => b.entries.length
  | .ctts b => b.entries.length
  | .stsc b => b.entries.length
  | .stco b => b.chunk_offsets.length
  | .co64 b => b.chunk_offsets.length
  | .stss b => b.sample_numbers.length
  | .stsz b => b.entry_sizes.length
  | .sdtp b => b.samples.length
  | .sbgp b => b.entries.length
  | .tfra b => b.entries.length
  | .trun b => b.entries.length
  | .avcC b => (b.sequence_parameter_sets.map fun nal => 1 + nal.length).sum +
      (b.picture_parameter_sets.map fun nal => 1 + nal.length).sum +
      (b.sequence_parameter_sets_ext.map fun nal => 1 + nal.length).sum
  | .av1C b => b.config_OBUs.length
  | .vpcC b => b.codec_initialization_data.length
  | .dOps b => b.channel_mapping.length
  | .audio b => b.quick_time_data.length
  | .hdlr b => b.name.length + b.padding.length
  | .url b => b.location.length
  | .urn b => b.name.length + b.location.length
  | .emsg b => b.scheme_uri.length + b.value.length + b.message_data.length
  | .data b => b.data.length
  | .colr b => b.profile.length + b.unknown.length
  | .pssh b => b.kids.length + b.data.length
  | .ftyp b => b.compatible_brands.length
  | .opaq b => b.data.length
  | .esds b => (b.descriptors.map fun d => 1 + d.elements).sum
  | .sgpd b => b.roll_distances.length +
      (b.alternative_startup_entries.map fun e => 1 + e.sample_offsets.length + e.opts.length).sum +
      b.visual_random_access_entries.length + b.temporal_level_entries.length
  | _ => 0

/-- A `trun` box none of whose entries has a field of its own (none of the flags 0x100, 0x200, 0x400 and 0x800,
include/shiguredo/mp4/box/trun.hpp:12-18): its entries take no room in the file. -/
def Trun.fieldless (b : Trun) : Bool :=
  !b.checkFlag 0x100#32 && !b.checkFlag 0x200#32 && !b.checkFlag 0x400#32 && !b.checkFlag 0x800#32

/-- The entries of a box object for which the file has no bytes. -/
def BoxData.unbacked : BoxData → Nat
  | .trun b => if b.fieldless then b.entries.length else 0
  | _ => 0

/-- The vectors and strings of newly constructed objects are empty: the default constructor of `std::vector` and `std::string`.
(`Env` is what the members of newly constructed objects contain; the members of other types are arbitrary.) -/
structure Env.Fresh (env : Env) : Prop where
  avcC : env.avcC.sequence_parameter_sets_ext = []
  audio : env.audio.quick_time_data = []
  url : env.url.location = []
  urn : env.urn.name = [] ∧ env.urn.location = []
  colr : env.colr.profile = [] ∧ env.colr.unknown = []
  pssh : env.pssh.kids = []
  sgpd : env.sgpd.roll_distances = [] ∧ env.sgpd.alternative_startup_entries = [] ∧
    env.sgpd.visual_random_access_entries = [] ∧ env.sgpd.temporal_level_entries = []

namespace Spec
mutual
/-- The objects in a tree of boxes: 8 for each box plus the elements it holds. -/
def held : Tree → Nat
  | .node box _ leafs => 8 + box.data.elements + heldList leafs
def heldList : List Tree → Nat
  | [] => 0
  | t :: ts => held t + heldList ts
end

mutual
/-- The entries in a tree of boxes for which the file has no bytes. -/
def unbacked : Tree → Nat
  | .node box _ leafs => box.data.unbacked + unbackedList leafs
def unbackedList : List Tree → Nat
  | [] => 0
  | t :: ts => unbacked t + unbackedList ts
end
end Spec

end Mp4
