import Verif.BitIO.BoxTools

/-! # Sample group descriptions (`src/box/sgpd.cpp`) -/

namespace Mp4

/-- `RollDistance` (include/shiguredo/mp4/box/sgpd.hpp:38-40). -/
structure RollDistance where
  description_length : BitVec 32
  roll_distance : BitVec 16
  with_length : Bool
  deriving DecidableEq

/-- src/box/sgpd.cpp:229-235 -/
def RollDistance.writeData (e : RollDistance) : W Nat := do
  let wbits ← W.opt e.with_length (write_uint e.description_length)
  pure (wbits + (← write_int e.roll_distance))

/-- src/box/sgpd.cpp:237-239 -/
def RollDistance.getSize (e : RollDistance) : Nat := 2 + (if e.with_length then 4 else 0)

/-- src/box/sgpd.cpp:241-248, on a value-initialised element. -/
def RollDistance.readData (with_length : Bool) : R (Nat × RollDistance) := do
  let (r0, description_length) ← R.opt with_length (read_uint 32) 0
  let (r1, roll_distance) ← read_int 16
  pure (r0 + r1, { description_length, roll_distance, with_length })

/-- `AlternativeStartupEntryOpt` (sgpd.hpp:59-60). -/
structure StartupOpt where
  num_output_samples : BitVec 16
  num_total_samples : BitVec 16
  deriving DecidableEq

/-- src/box/sgpd.cpp:257-260 -/
def StartupOpt.writeData (e : StartupOpt) : W Nat := do
  let wbits ← write_uint e.num_output_samples
  pure (wbits + (← write_uint e.num_total_samples))

/-- src/box/sgpd.cpp:262-265 -/
def StartupOpt.readData : R (Nat × StartupOpt) := do
  let (r0, a) ← read_uint 16
  let (r1, b) ← read_uint 16
  pure (r0 + r1, ⟨a, b⟩)

/-- `AlternativeStartupEntry` (sgpd.hpp:83-88). -/
structure StartupEntry where
  description_length : BitVec 32
  with_length : Bool
  roll_count : BitVec 16
  first_output_sample : BitVec 16
  sample_offsets : List (BitVec 32)
  opts : List StartupOpt
  deriving DecidableEq

/-- src/box/sgpd.cpp:292-303 -/
def StartupEntry.writeData (e : StartupEntry) : W Nat := do
  let mut wbits ← W.opt e.with_length (write_uint e.description_length)
  wbits := wbits + (← write_uint e.roll_count)
  wbits := wbits + (← write_uint e.first_output_sample)
  wbits := wbits + (← write_vector_uint e.sample_offsets)
  pure (wbits + (← writeList StartupOpt.writeData e.opts))

/-- src/box/sgpd.cpp:305-307 -/
def StartupEntry.getSize (e : StartupEntry) : Nat :=
  4 + 4 * e.sample_offsets.length + 4 * e.opts.length + (if e.with_length then 4 else 0)

/-- src/box/sgpd.cpp:309-337.  `m_description_length * 8` and `length * 8` are `uint32_t` products; the difference is
signed. -/
def StartupEntry.readData (length : BitVec 32) (with_length : Bool) : R (Nat × StartupEntry) := do
  let (r0, description_length) ← R.opt with_length (read_uint 32) 0
  let (r1, roll_count) ← read_uint 16
  let (r2, first_output_sample) ← read_uint 16
  let (r3, sample_offsets) ← read_vector_uint 32 roll_count.toNat
  let rbits := r0 + r1 + r2 + r3
  let offset : Int :=
    if with_length then (description_length * 8).toNat - (rbits - 32 : Nat) else (length * 8).toNat - (rbits : Nat)
  if offset < 0 ∨ offset % 32 ≠ 0 then
    .throw (.exc "AlternativeStartupEntry::readData(): invalid offset of AlternativeStartupEntry")
  else do
    let (r4, opts) ← readN StartupOpt.readData (offset / 32).toNat
    pure (rbits + r4,
      { description_length, with_length, roll_count, first_output_sample, sample_offsets, opts })

/-- `VisualRandomAccessEntry` (sgpd.hpp:109-112). -/
structure RapEntry where
  description_length : BitVec 32
  num_leading_samples_known : Bool
  num_leading_samples : BitVec 8
  with_length : Bool
  deriving DecidableEq

/-- src/box/sgpd.cpp:357-364 -/
def RapEntry.writeData (e : RapEntry) : W Nat := do
  let mut wbits ← W.opt e.with_length (write_uint e.description_length)
  wbits := wbits + (← write_bool e.num_leading_samples_known)
  pure (wbits + (← write_uint e.num_leading_samples 7))

/-- src/box/sgpd.cpp:366-368 -/
def RapEntry.getSize (e : RapEntry) : Nat := 1 + (if e.with_length then 4 else 0)

/-- src/box/sgpd.cpp:370-378 -/
def RapEntry.readData (with_length : Bool) : R (Nat × RapEntry) := do
  let (r0, description_length) ← R.opt with_length (read_uint 32) 0
  let (r1, known) ← read_bool
  let (r2, n) ← read_uint 8 7
  pure (r0 + r1 + r2, { description_length, num_leading_samples_known := known, num_leading_samples := n, with_length })

/-- `TemporalLevelEntry` (sgpd.hpp:132-135). -/
structure TeleEntry where
  description_length : BitVec 32
  level_independently_decodable : Bool
  reserved : BitVec 8
  with_length : Bool
  deriving DecidableEq

/-- src/box/sgpd.cpp:396-403 -/
def TeleEntry.writeData (e : TeleEntry) : W Nat := do
  let mut wbits ← W.opt e.with_length (write_uint e.description_length)
  wbits := wbits + (← write_bool e.level_independently_decodable)
  pure (wbits + (← write_uint e.reserved 7))

/-- src/box/sgpd.cpp:405-407 -/
def TeleEntry.getSize (e : TeleEntry) : Nat := 1 + (if e.with_length then 4 else 0)

/-- src/box/sgpd.cpp:409-417 -/
def TeleEntry.readData (with_length : Bool) : R (Nat × TeleEntry) := do
  let (r0, description_length) ← R.opt with_length (read_uint 32) 0
  let (r1, l) ← read_bool
  let (r2, n) ← read_uint 8 7
  pure (r0 + r1 + r2, { description_length, level_independently_decodable := l, reserved := n, with_length })

/-- `Sgpd` (sgpd.hpp:164-170). -/
structure Sgpd extends FullBox where
  grouping_type : Arr4
  default_length : BitVec 32
  default_sample_description_index : BitVec 32
  roll_distances : List RollDistance
  alternative_startup_entries : List StartupEntry
  visual_random_access_entries : List RapEntry
  temporal_level_entries : List TeleEntry
  deriving DecidableEq

/-- `GroupingTypeRoll` or `GroupingTypeProl` (include/shiguredo/mp4/grouping_type.hpp:10-11). -/
def isRoll (t : Arr4) : Bool := t == ⟨0x72#8, 0x6f#8, 0x6c#8, 0x6c#8⟩ || t == ⟨0x70#8, 0x72#8, 0x6f#8, 0x6c#8⟩
/-- `GroupingTypeAlst` (grouping_type.hpp:12). -/
def isAlst (t : Arr4) : Bool := t == ⟨0x61#8, 0x6c#8, 0x73#8, 0x74#8⟩
/-- `GroupingTypeRap` (grouping_type.hpp:13). -/
def isRap (t : Arr4) : Bool := t == ⟨0x72#8, 0x61#8, 0x70#8, 0x20#8⟩
/-- `GroupingTypeTele` (grouping_type.hpp:14). -/
def isTele (t : Arr4) : Bool := t == ⟨0x74#8, 0x65#8, 0x6c#8, 0x65#8⟩

/-- src/box/sgpd.cpp:104-142 -/
def Sgpd.writeData (b : Sgpd) : W Nat := do
  let mut wbits ← b.toFullBox.writeVersionAndFlag
  wbits := wbits + (← write_array_uint8_4 b.grouping_type)
  wbits := wbits + (← write_uint (if b.version = 1 then b.default_length else b.default_sample_description_index))
  if isRoll b.grouping_type then
    wbits := wbits + (← write_uint (BitVec.ofNat 32 b.roll_distances.length))
    pure (wbits + (← writeList RollDistance.writeData b.roll_distances))
  else if isAlst b.grouping_type then
    wbits := wbits + (← write_uint (BitVec.ofNat 32 b.alternative_startup_entries.length))
    pure (wbits + (← writeList StartupEntry.writeData b.alternative_startup_entries))
  else if isRap b.grouping_type then
    wbits := wbits + (← write_uint (BitVec.ofNat 32 b.visual_random_access_entries.length))
    pure (wbits + (← writeList RapEntry.writeData b.visual_random_access_entries))
  else if isTele b.grouping_type then
    wbits := wbits + (← write_uint (BitVec.ofNat 32 b.temporal_level_entries.length))
    pure (wbits + (← writeList TeleEntry.writeData b.temporal_level_entries))
  else pure wbits

/-- src/box/sgpd.cpp:144-162 -/
def Sgpd.getDataSize (b : Sgpd) : Nat :=
  if isRoll b.grouping_type then 16 + (b.roll_distances.map RollDistance.getSize).sum
  else if isAlst b.grouping_type then 16 + (b.alternative_startup_entries.map StartupEntry.getSize).sum
  else if isRap b.grouping_type then 16 + (b.visual_random_access_entries.map RapEntry.getSize).sum
  else if isTele b.grouping_type then 16 + (b.temporal_level_entries.map TeleEntry.getSize).sum
  else 12

/-- `Sgpd::noDefaultLength` (src/box/sgpd.cpp:213-215). -/
def noDefaultLength (version : Byte) (default_length : BitVec 32) : Bool := version == 1 && default_length == 0

/-- src/box/sgpd.cpp:164-211; `old` is the object before the call (fresh entries after `resize`). -/
def Sgpd.readData (old : Sgpd) : R (Nat × Sgpd) := do
  let (r0, fb) ← FullBox.readVersionAndFlag
  let (r1, grouping_type) ← read_array_uint8_4
  let (r2, v) ← read_uint 32
  let b : Sgpd := { old with toFullBox := fb, grouping_type }
  let b := if fb.version = 1 then { b with default_length := v } else { b with default_sample_description_index := v }
  let rbits := r0 + r1 + r2
  let no_default_length := noDefaultLength fb.version b.default_length
  if isRoll grouping_type then do
    let (r3, size) ← read_uint 32
    let (r4, es) ← readN (RollDistance.readData no_default_length) size.toNat
    pure (rbits + r3 + r4, { b with roll_distances := es })
  else if isAlst grouping_type then do
    let (r3, size) ← read_uint 32
    let (r4, es) ← readN (StartupEntry.readData b.default_length no_default_length) size.toNat
    pure (rbits + r3 + r4, { b with alternative_startup_entries := es })
  else if isRap grouping_type then do
    let (r3, size) ← read_uint 32
    let (r4, es) ← readN (RapEntry.readData no_default_length) size.toNat
    pure (rbits + r3 + r4, { b with visual_random_access_entries := es })
  else if isTele grouping_type then do
    let (r3, size) ← read_uint 32
    let (r4, es) ← readN (TeleEntry.readData no_default_length) size.toNat
    pure (rbits + r3 + r4, { b with temporal_level_entries := es })
  else pure (rbits, b)

end Mp4
