import Verif.Model.Reader

/-! # Allocations made while reading

`readData` of the boxes with tables calls `vector::resize(count)` with a count taken from the file before it reads the elements.  Here the
readers of `Model/Boxes` are written again with those calls (`erase_readData` in `Lemmas/Alloc.lean`: without them they are the same
programs), and run with an allocator that may refuse.

Only `std::vector::resize` on members is modelled (`read_vector_uint` and the tables); a request is the number of elements.  Not modelled:
strings and vectors that grow one element at a time, the copy of the payload in `SimpleReader::readBox` (as long as the payload), the box
objects themselves. -/

namespace Mp4

/-- A program on a bit reader, as `R`, that also resizes empty vectors. -/
inductive A (α : Type) where
  | ret (a : α)
  | throw (e : Err)
  | bit (k : Bool → A α)
  | toEnd (k : Nat → A α)
  | tell (k : Nat → A α)
  | seek (o : Nat) (k : A α)
  /-- `v.resize(n)` -/
  | alloc (n : Nat) (k : A α)

namespace A

def bind {α β : Type} : A α → (α → A β) → A β
  | .ret a, f => f a
  | .throw e, _ => .throw e
  | .bit k, f => .bit fun b => (k b).bind f
  | .toEnd k, f => .toEnd fun n => (k n).bind f
  | .tell k, f => .tell fun n => (k n).bind f
  | .seek o k, f => .seek o (k.bind f)
  | .alloc n k, f => .alloc n (k.bind f)

instance : Monad A where
  pure := .ret
  bind := bind

/-- A program that does not allocate. -/
def lift {α : Type} : R α → A α
  | .ret a => .ret a
  | .throw e => .throw e
  | .bit k => .bit fun b => lift (k b)
  | .toEnd k => .toEnd fun n => lift (k n)
  | .tell k => .tell fun n => lift (k n)
  | .seek o k => .seek o (lift k)

instance : MonadLift R A where
  monadLift := lift

/-- The program without its allocations. -/
def erase {α : Type} : A α → R α
  | .ret a => .ret a
  | .throw e => .throw e
  | .bit k => .bit fun b => (k b).erase
  | .toEnd k => .toEnd fun n => (k n).erase
  | .tell k => .tell fun n => (k n).erase
  | .seek o k => .seek o k.erase
  | .alloc _ k => k.erase

/-- The allocator: given the sizes requested before and the size requested now, whether it has the memory.  (It need not be consistent in any way.) -/
abbrev Policy := List Nat → Nat → Bool

/-- What `resize` throws when it does not get the memory. -/
def badAlloc : Err := .exc "std::bad_alloc"

/-- Execute on the concrete reader object; `log` are the requests made before, the second result the requests made afterwards. -/
def runC {α : Type} (g : Policy) : A α → Reader → List Nat → Except Err (α × Reader) × List Nat
  | .ret a, r, log => (.ok (a, r), log)
  | .throw e, _, log => (.error e, log)
  | .bit k, r, log =>
    match r.readBit with
    | .error e => (.error e, log)
    | .ok (b, r) => (k b).runC g r log
  | .toEnd k, r, log => (k (r.is.data.length - r.is.pos)).runC g r log
  | .tell k, r, log => (k r.is.pos).runC g r log
  | .seek o k, r, log =>
    if o ≤ r.is.data.length then k.runC g { r with is := { r.is with pos := o } } log
    else (.error (.exc "istream::seekg() failed"), log)
  | .alloc n k, r, log => if g log n then k.runC g r (log ++ [n]) else (.error badAlloc, log ++ [n])

/-- The loop over the elements, when reading an element allocates (src/box/avc.cpp:177-179, src/box/sgpd.cpp:187-189). -/
def loop {α : Type} (p : A (Nat × α)) : Nat → A (Nat × List α)
  | 0 => pure (0, [])
  | n + 1 => do
    let (a, x) ← p
    let (b, l) ← loop p n
    pure (a + b, x :: l)

/-- `resize` and the loop over the elements. -/
def readNA {α : Type} (p : A (Nat × α)) (n : Nat) : A (Nat × List α) := .alloc n (loop p n)

/-- `resize` and the loop over the elements, for elements that do not allocate. -/
def readN {α : Type} (p : R (Nat × α)) (n : Nat) : A (Nat × List α) := .alloc n (lift (Mp4.readN p n))

/-- `read_vector_uint<T>` (include/shiguredo/mp4/bitio/bitio.hpp:129-137). -/
def read_vector_uint (w : Nat) (size : Nat) : A (Nat × List (BitVec w)) := A.readN (read_uint w) size

/-- A member that is read only if `c`. -/
def opt {α : Type} (c : Bool) (p : A (Nat × α)) (old : α) : A (Nat × α) := if c then p else pure (0, old)

end A

/-! ### Codec -/

/-- `AVCParameterSet.readData` (src/box/avc.cpp:60-65) with its allocations. -/
def AVCParameterSet.readDataA : A (Nat × List Byte) := do
  let (r0, size) ← read_uint 16
  let (r1, nal) ← A.read_vector_uint 8 size.toNat
  pure (r0 + r1, nal)

/-- `AvcC.readData` (src/box/avc.cpp:165-211) with its allocations. -/
def AvcC.readDataA (old : AvcC) : A (Nat × AvcC) := do
  let (r0, configuration_version) ← read_uint 8
  let (r1, profile) ← read_uint 8
  let (r2, profile_compatibility) ← read_uint 8
  let (r3, level) ← read_uint 8
  let (r4, reserved) ← read_uint 8 6
  let (r5, length_size_minus_one) ← read_uint 8 2
  let (r6, reserved2) ← read_uint 8 3
  let (r7, size_of_seq) ← read_uint 8 5
  let (r8, seq) ← A.readNA AVCParameterSet.readDataA size_of_seq.toNat
  let (r9, size_of_pic) ← read_uint 8
  let (r10, pic) ← A.readNA AVCParameterSet.readDataA size_of_pic.toNat
  let rbits := r0 + r1 + r2 + r3 + r4 + r5 + r6 + r7 + r8 + r9 + r10
  let b : AvcC := { old with
    configuration_version, profile, profile_compatibility, level, reserved, length_size_minus_one, reserved2,
    sequence_parameter_sets := seq, picture_parameter_sets := pic, high_profile_fields_enabled := false }
  if !is_avc_high_profile profile then pure (rbits, b)
  else do
    let offset_to_end ← R.offsetToEnd
    if offset_to_end < 4 then pure (rbits + offset_to_end * 8, b)
    else do
      let (s0, reserved3) ← read_uint 8 6
      let (s1, chroma_format) ← read_uint 8 2
      let (s2, reserved4) ← read_uint 8 5
      let (s3, luma) ← read_uint 8 3
      let (s4, reserved5) ← read_uint 8 5
      let (s5, chroma) ← read_uint 8 3
      let (s6, size_of_ext) ← read_uint 8
      let (s7, ext) ← A.readNA AVCParameterSet.readDataA size_of_ext.toNat
      pure (rbits + s0 + s1 + s2 + s3 + s4 + s5 + s6 + s7, { b with
        high_profile_fields_enabled := true, reserved3, chroma_format, reserved4, bit_depth_luma_minus8 := luma,
        reserved5, bit_depth_chroma_minus8 := chroma, sequence_parameter_sets_ext := ext })

/-- `Av1C.readData` (src/box/av1c.cpp:65-84) with its allocations. -/
def Av1C.readDataA : A (Nat × Av1C) := do
  let (r0, marker) ← read_uint 8 1
  let (r1, version) ← read_uint 8 7
  let (r2, seq_profile) ← read_uint 8 3
  let (r3, seq_level_idx_0) ← read_uint 8 5
  let (r4, seq_tier_0) ← read_uint 8 1
  let (r5, high_bitdepth) ← read_bool
  let (r6, twelve_bit) ← read_bool
  let (r7, monochrome) ← read_bool
  let (r8, chroma_subsampling_x) ← read_uint 8 1
  let (r9, chroma_subsampling_y) ← read_uint 8 1
  let (r10, chroma_sample_position) ← read_uint 8 2
  let (r11, reserved) ← read_uint 8 3
  let (r12, present) ← read_bool
  let (r13, minus_one) ← read_uint 8 4
  let offset_to_end ← R.offsetToEnd
  let (r14, obus) ← A.read_vector_uint 8 offset_to_end
  pure (r0 + r1 + r2 + r3 + r4 + r5 + r6 + r7 + r8 + r9 + r10 + r11 + r12 + r13 + r14,
    ⟨marker, version, seq_profile, seq_level_idx_0, seq_tier_0, high_bitdepth, twelve_bit, monochrome,
      chroma_subsampling_x, chroma_subsampling_y, chroma_sample_position, reserved, present, minus_one, obus⟩)

/-- `VpcC.readData` (src/box/vpc.cpp:61-79) with its allocations. -/
def VpcC.readDataA : A (Nat × VpcC) := do
  let (rbits, fb) ← FullBox.readVersionAndFlag
  let (r0, profile) ← read_uint 8
  let (r1, level) ← read_uint 8
  let (r2, bit_depth) ← read_uint 8 4
  let (r3, chroma) ← read_uint 8 3
  let (r4, range) ← read_uint 8 1
  let (r5, primaries) ← read_uint 8
  let (r6, transfer) ← read_uint 8
  let (r7, matrix) ← read_uint 8
  let rbits := rbits + r0 + r1 + r2 + r3 + r4 + r5 + r6 + r7
  if fb.version = 0#8 then
    pure (rbits, ⟨fb, profile, level, bit_depth, chroma, range, primaries, transfer, matrix, []⟩)
  else do
    let (r8, size) ← read_uint 16
    let (r9, l) ← A.read_vector_uint 8 size.toNat
    pure (rbits + r8 + r9, ⟨fb, profile, level, bit_depth, chroma, range, primaries, transfer, matrix, l⟩)

/-- `DOps.readData` (src/box/dOps.cpp:57-69, 91-95) with its allocations. -/
def DOps.readDataA : A (Nat × DOps) := do
  let (r0, version) ← read_uint 8
  let (r1, count) ← read_uint 8
  let (r2, pre_skip) ← read_uint 16
  let (r3, rate) ← read_uint 32
  let (r4, gain) ← read_int 16
  let (r5, family) ← read_uint 8
  let rbits := r0 + r1 + r2 + r3 + r4 + r5
  if family = 0#8 then pure (rbits, ⟨version, count, pre_skip, rate, gain, family, 0, 0, []⟩)
  else do
    let (s0, stream_count) ← read_uint 8
    let (s1, coupled_count) ← read_uint 8
    let (s2, mapping) ← A.read_vector_uint 8 count.toNat
    pure (rbits + (s0 + s1 + s2),
      ⟨version, count, pre_skip, rate, gain, family, stream_count, coupled_count, mapping⟩)

/-! ### Sgpd -/

/-- `StartupEntry.readData` (src/box/sgpd.cpp:309-337) with its allocations. -/
def StartupEntry.readDataA (length : BitVec 32) (with_length : Bool) : A (Nat × StartupEntry) := do
  let (r0, description_length) ← R.opt with_length (read_uint 32) 0
  let (r1, roll_count) ← read_uint 16
  let (r2, first_output_sample) ← read_uint 16
  let (r3, sample_offsets) ← A.read_vector_uint 32 roll_count.toNat
  let rbits := r0 + r1 + r2 + r3
  let offset : Int :=
    if with_length then (description_length * 8).toNat - (rbits - 32 : Nat) else (length * 8).toNat - (rbits : Nat)
  if offset < 0 ∨ offset % 32 ≠ 0 then
    .throw (.exc "AlternativeStartupEntry::readData(): invalid offset of AlternativeStartupEntry")
  else do
    let (r4, opts) ← A.readN StartupOpt.readData (offset / 32).toNat
    pure (rbits + r4,
      { description_length, with_length, roll_count, first_output_sample, sample_offsets, opts })

/-- `Sgpd.readData` (src/box/sgpd.cpp:164-211) with its allocations. -/
def Sgpd.readDataA (old : Sgpd) : A (Nat × Sgpd) := do
  let (r0, fb) ← FullBox.readVersionAndFlag
  let (r1, grouping_type) ← read_array_uint8_4
  let (r2, v) ← read_uint 32
  let b : Sgpd := { old with toFullBox := fb, grouping_type }
  let b := if fb.version = 1 then { b with default_length := v } else { b with default_sample_description_index := v }
  let rbits := r0 + r1 + r2
  let no_default_length := noDefaultLength fb.version b.default_length
  if isRoll grouping_type then do
    let (r3, size) ← read_uint 32
    let (r4, es) ← A.readN (RollDistance.readData no_default_length) size.toNat
    pure (rbits + r3 + r4, { b with roll_distances := es })
  else if isAlst grouping_type then do
    let (r3, size) ← read_uint 32
    let (r4, es) ← A.readNA (StartupEntry.readDataA b.default_length no_default_length) size.toNat
    pure (rbits + r3 + r4, { b with alternative_startup_entries := es })
  else if isRap grouping_type then do
    let (r3, size) ← read_uint 32
    let (r4, es) ← A.readN (RapEntry.readData no_default_length) size.toNat
    pure (rbits + r3 + r4, { b with visual_random_access_entries := es })
  else if isTele grouping_type then do
    let (r3, size) ← read_uint 32
    let (r4, es) ← A.readN (TeleEntry.readData no_default_length) size.toNat
    pure (rbits + r3 + r4, { b with temporal_level_entries := es })
  else pure (rbits, b)

/-! ### Versioned -/

/-- `Elst.readData` (src/box/elst.cpp:86-98) with its allocations. -/
def Elst.readDataA : A (Nat × Elst) := do
  let (rbits, fb) ← FullBox.readVersionAndFlag
  let (r0, entry_count) ← read_uint 32
  let (r1, es) ← A.readN (ElstEntry.readData (vw fb)) entry_count.toNat
  pure (rbits + r0 + r1, ⟨fb, es⟩)

/-- `Sidx.readData` (src/box/sidx.cpp:72-88) with its allocations. -/
def Sidx.readDataA : A (Nat × Sidx) := do
  let (rbits, fb) ← FullBox.readVersionAndFlag
  let (r0, reference_id) ← read_uint 32
  let (r1, timescale) ← read_uint 32
  let (r2, ept) ← read_uint 64 (vw fb)
  let (r3, first_offset) ← read_uint 64 (vw fb)
  let (r4, reserved) ← read_uint 16
  let (r5, size) ← read_uint 16
  let (r6, refs) ← A.readN SidxReference.readData size.toNat
  pure (rbits + r0 + r1 + r2 + r3 + r4 + r5 + r6, ⟨fb, reference_id, timescale, ept, first_offset, reserved, refs⟩)

/-! ### Tables -/

/-- `Stts.readData` (src/box/stts.cpp:58-68) with its allocations. -/
def Stts.readDataA : A (Nat × Stts) := do
  let (rbits, fb) ← FullBox.readVersionAndFlag
  let (r0, entry_count) ← read_uint 32
  let (r1, es) ← A.readN SttsEntry.readData entry_count.toNat
  pure (rbits + r0 + r1, ⟨fb, es⟩)

/-- `Ctts.readData` (src/box/ctts.cpp:74-84) with its allocations. -/
def Ctts.readDataA : A (Nat × Ctts) := do
  let (rbits, fb) ← FullBox.readVersionAndFlag
  let (r0, entry_count) ← read_uint 32
  let (r1, es) ← A.readN CttsEntry.readData entry_count.toNat
  pure (rbits + r0 + r1, ⟨fb, es⟩)

/-- `Stsc.readData` (src/box/stsc.cpp:58-68) with its allocations. -/
def Stsc.readDataA : A (Nat × Stsc) := do
  let (rbits, fb) ← FullBox.readVersionAndFlag
  let (r0, entry_count) ← read_uint 32
  let (r1, es) ← A.readN StscEntry.readData entry_count.toNat
  pure (rbits + r0 + r1, ⟨fb, es⟩)

/-- `Stco.readData` (src/box/stco.cpp:45-51) with its allocations. -/
def Stco.readDataA : A (Nat × Stco) := do
  let (rbits, fb) ← FullBox.readVersionAndFlag
  let (r0, entry_count) ← read_uint 32
  let (r1, l) ← A.read_vector_uint 32 entry_count.toNat
  pure (rbits + r0 + r1, ⟨fb, l⟩)

/-- `Co64.readData` (src/box/co64.cpp:46-54) with its allocations. -/
def Co64.readDataA : A (Nat × Co64) := do
  let (rbits, fb) ← FullBox.readVersionAndFlag
  let (r0, entry_count) ← read_uint 32
  let (r1, l) ← A.read_vector_uint 64 entry_count.toNat
  pure (rbits + r0 + r1, ⟨fb, l⟩)

/-- `Stss.readData` (src/box/stss.cpp:50-56) with its allocations. -/
def Stss.readDataA : A (Nat × Stss) := do
  let (rbits, fb) ← FullBox.readVersionAndFlag
  let (r0, entry_count) ← read_uint 32
  let (r1, l) ← A.read_vector_uint 32 entry_count.toNat
  pure (rbits + r0 + r1, ⟨fb, l⟩)

/-- `Stsz.readData` (src/box/stsz.cpp:53-65) with its allocations. -/
def Stsz.readDataA : A (Nat × Stsz) := do
  let (rbits, fb) ← FullBox.readVersionAndFlag
  let (r0, sample_size) ← read_uint 32
  let (r1, sample_count) ← read_uint 32
  if sample_size = 0#32 then do
    let (r2, l) ← A.read_vector_uint 32 sample_count.toNat
    pure (rbits + r0 + r1 + r2, ⟨fb, sample_size, l⟩)
  else pure (rbits + r0 + r1, ⟨fb, sample_size, []⟩)

/-- `Sdtp.readData` (src/box/sdtp.cpp:52-61) with its allocations. -/
def Sdtp.readDataA : A (Nat × Sdtp) := do
  let (rbits, fb) ← FullBox.readVersionAndFlag
  let offset_to_end ← R.offsetToEnd
  let (r1, l) ← A.readN SdtpSample.readData offset_to_end
  pure (rbits + r1, ⟨fb, l⟩)

/-- `Sbgp.readData` (src/box/sbgp.cpp:80-96) with its allocations. -/
def Sbgp.readDataA (old : BitVec 32) : A (Nat × Sbgp) := do
  let (rbits, fb) ← FullBox.readVersionAndFlag
  let (r0, grouping_type) ← read_array_uint8_4
  let (r1, p) ← R.opt (fb.version ≠ 0#8) (read_uint 32) old
  let (r2, size) ← read_uint 32
  let (r3, es) ← A.readN SbgpEntry.readData size.toNat
  pure (rbits + r0 + r1 + r2 + r3, ⟨fb, grouping_type, p, es⟩)

/-! ### Fragments -/

/-- `Tfra.readData` (src/box/tfra.cpp:76-92) with its allocations. -/
def Tfra.readDataA : A (Nat × Tfra) := do
  let (rbits, fb) ← FullBox.readVersionAndFlag
  let (r0, track_id) ← read_uint 32
  let (r1, reserved) ← read_uint 32 26
  let (r2, l0) ← read_uint 8 2
  let (r3, l1) ← read_uint 8 2
  let (r4, l2) ← read_uint 8 2
  let (r5, entry_count) ← read_uint 32
  let (r6, es) ← A.readN (TfraEntry.readData (vw fb) l0 l1 l2) entry_count.toNat
  pure (rbits + r0 + r1 + r2 + r3 + r4 + r5 + r6, ⟨fb, track_id, reserved, l0, l1, l2, es⟩)

/-- `Trun.readData` (src/box/trun.cpp:83-100) with its allocations. -/
def Trun.readDataA (old : Trun) : A (Nat × Trun) := do
  let (rbits, fb) ← FullBox.readVersionAndFlag
  let (r0, sample_count) ← read_uint 32
  let (r1, a) ← R.opt (fb.checkFlag 0x1#32) (read_int 32) old.data_offset
  let (r2, b) ← R.opt (fb.checkFlag 0x4#32) (read_uint 32) old.first_sample_flags
  let (r3, es) ← A.readN (TrunEntry.readData fb) sample_count.toNat
  pure (rbits + r0 + r1 + r2 + r3, ⟨fb, a, b, es⟩)

/-! ### SampleEntries -/

/-- `AudioSampleEntry.readData` (src/box/sample_entry.cpp:176-206) with its allocations. -/
def AudioSampleEntry.readDataA (old : AudioSampleEntry) : A (Nat × AudioSampleEntry) :=
  if old.under_wave then do
    let offset_to_end ← R.offsetToEnd
    let (r, quick_time_data) ← A.read_vector_uint 8 offset_to_end
    pure (r, { old with quick_time_data })
  else do
    let (r0, reserved, data_reference_index) ← readReservedAndIndex
    let (r1, entry_version) ← read_uint 16
    let (r2, reserved2) ← read_arr 16 3
    let (r3, channel_count) ← read_uint 16
    let (r4, sample_size) ← read_uint 16
    let (r5, pre_defined) ← read_uint 16
    let (r6, reserved3) ← read_uint 16
    let (r7, sample_rate) ← read_uint 32
    let rbits := r0 + r1 + r2 + r3 + r4 + r5 + r6 + r7
    let b : AudioSampleEntry := { old with
      reserved, data_reference_index, entry_version, reserved2, channel_count, sample_size, pre_defined, reserved3,
      sample_rate }
    if old.type = fourcc "Opus" ∨ entry_version = 0 then
      pure (rbits, { b with is_quick_time_compatible := false })
    else do
      let offset_to_end ← R.offsetToEnd
      if offset_to_end = 0 then pure (rbits, { b with is_quick_time_compatible := false })
      else do
        let (r, quick_time_data) ←
          A.read_vector_uint 8 (AudioSampleEntry.getLengthOfQuickTimeData entry_version offset_to_end)
        pure (rbits + r, { b with is_quick_time_compatible := true, quick_time_data })

/-! ### Strings -/

/-- `Hdlr.readData` (src/box/hdlr.cpp:59-81) with its allocations. -/
def Hdlr.readDataA : A (Nat × Hdlr) := do
  let (r0, fb) ← FullBox.readVersionAndFlag
  let (r1, pre_defined) ← read_uint 32
  let (r2, handler_type) ← read_array_uint8_4
  let (r3, manufacturer) ← read_array_uint8_4
  let (r4, hflags) ← read_array_uint8_4
  let (r5, flags_mask) ← read_array_uint8_4
  let rbits := r0 + r1 + r2 + r3 + r4 + r5
  let offset_to_end ← R.offsetToEnd
  let (name_rbits, name) ←
    if pre_defined ≠ 0 then read_pascal_string (offset_to_end * 8) else read_string (offset_to_end * 8)
  if offset_to_end * 8 < name_rbits ∨ name_rbits % 8 ≠ 0 then
    .throw (.exc "Hdlr::readData(): invalid name_rbits")
  else do
    let (r6, padding) ← A.read_vector_uint 8 (offset_to_end * 8 - name_rbits)
    pure (rbits + name_rbits + r6,
      { toFullBox := fb, pre_defined, handler_type, manufacturer, hflags, flags_mask, name, padding })

/-- `Emsg.readTail` (src/box/emsg.cpp:99-101) with its allocations. -/
def Emsg.readTailA (rbits : Nat) (b : Emsg) : A (Nat × Emsg) := do
  let offset_to_end ← R.offsetToEnd
  let (r, message_data) ← A.read_vector_uint 8 offset_to_end
  pure (rbits + r, { b with message_data })

/-- `Emsg.readData` (src/box/emsg.cpp:77-102) with its allocations. -/
def Emsg.readDataA : A (Nat × Emsg) := do
  let (r, fb) ← FullBox.readVersionAndFlag
  if fb.version = 0 then do
    let offset_to_end ← R.offsetToEnd
    let (r0, scheme_uri) ← read_string (offset_to_end * 8)
    let (r1, value) ← read_string (offset_to_end * 8 - r0)
    let (r2, timescale) ← read_uint 32
    let (r3, presentation_time) ← read_uint 64 32
    let (r4, event_duration) ← read_uint 32
    let (r5, id) ← read_uint 32
    Emsg.readTailA (r + r0 + r1 + r2 + r3 + r4 + r5)
      { toFullBox := fb, scheme_uri, value, timescale, presentation_time, event_duration, id, message_data := [] }
  else do
    let (r2, timescale) ← read_uint 32
    let (r3, presentation_time) ← read_uint 64
    let (r4, event_duration) ← read_uint 32
    let (r5, id) ← read_uint 32
    let offset_to_end ← R.offsetToEnd
    let (r0, scheme_uri) ← read_string (offset_to_end * 8)
    let (r1, value) ← read_string (offset_to_end * 8 - r0)
    Emsg.readTailA (r + r2 + r3 + r4 + r5 + r0 + r1)
      { toFullBox := fb, scheme_uri, value, timescale, presentation_time, event_duration, id, message_data := [] }

/-- `Data.readData` (src/box/data.cpp:58-66) with its allocations. -/
def Data.readDataA : A (Nat × Data) := do
  let (r0, data_type) ← read_uint 32
  let (r1, data_lang) ← read_uint 32
  let offset_to_end ← R.offsetToEnd
  let (r2, data) ← A.read_vector_uint 8 offset_to_end
  pure (r0 + r1 + r2, { data_type, data_lang, data })

/-- `Colr.readData` (src/box/colr.cpp:92-120) with its allocations. -/
def Colr.readDataA (old : Colr) : A (Nat × Colr) := do
  let (r, colour_type) ← read_array_uint8_4
  if Colr.isNclx colour_type then do
    let (r0, colour_primaries) ← read_uint 16
    let (r1, transfer_characteristics) ← read_uint 16
    let (r2, matrix_coefficients) ← read_uint 16
    let (r3, full_range_flag) ← read_bool
    let (r4, reserved) ← read_uint 8 7
    pure (r + r0 + r1 + r2 + r3 + r4,
      { old with colour_type, colour_primaries, transfer_characteristics, matrix_coefficients, full_range_flag,
                 reserved })
  else do
    let offset_to_end ← R.offsetToEnd
    if Colr.isProfile colour_type then do
      let (r0, profile) ← A.read_vector_uint 8 offset_to_end
      pure (r + r0, { old with colour_type, profile })
    else do
      let (r0, unknown) ← A.read_vector_uint 8 offset_to_end
      pure (r + r0, { old with colour_type, unknown })

/-- `Pssh.readData` (src/box/pssh.cpp:86-108) with its allocations. -/
def Pssh.readDataA (old : Pssh) : A (Nat × Pssh) := do
  let (r0, fb) ← FullBox.readVersionAndFlag
  let (r1, system_id) ← read_arr 8 16
  let (r2, kids) ← A.opt (decide (fb.version ≠ 0)) (do
    let (s0, kid_count) ← read_uint 32
    let (s1, kids) ← A.readN (read_arr 8 16) kid_count.toNat
    pure (s0 + s1, kids)) old.kids
  let (r3, data_size) ← read_uint 32
  let (r4, data) ← A.read_vector_uint 8 data_size.toNat
  pure (r0 + r1 + r2 + r3 + r4, { toFullBox := fb, system_id, kids, data })

/-- `Ftyp.readData` (src/box/ftyp.cpp:63-79, src/box/styp.cpp:67-83) with its allocations. -/
def Ftyp.readDataA : A (Nat × Ftyp) := do
  let (r0, major_brand) ← read_array_uint8_4
  let (r1, minor_version) ← read_uint 32
  let offset_to_end ← R.offsetToEnd
  if offset_to_end % 4 ≠ 0 then .throw (.exc "Ftyp::readData(): box has invalid length")
  else do
    let (r2, compatible_brands) ← A.readN read_array_uint8_4 (offset_to_end / 4)
    pure (r0 + r1 + r2, { major_brand, minor_version, compatible_brands })

/-- `Opaque.readData` (src/box/free.cpp:41-45) with its allocations. -/
def Opaque.readDataA : A (Nat × Opaque) := do
  let offset_to_end ← R.offsetToEnd
  let (r, data) ← A.read_vector_uint 8 offset_to_end
  pure (r, { data })

/-! ### Esds -/

/-- `ESFields.readData` (src/box/esds.cpp:97-119) with its allocations. -/
def ESFields.readDataA (g : ESJunk) : A (Nat × Descriptor) := do
  let (r0, size) ← read_uvarint 32
  let (r1, ESID) ← read_uint 16
  let (r2, stream_dependence_flag) ← read_bool
  let (r3, url_flag) ← read_bool
  let (r4, ocr_stream_flag) ← read_bool
  let (r5, stream_priority) ← read_int 8 5
  let (r6, depends_on_esid) ← R.opt stream_dependence_flag (read_uint 16) g.depends_on_esid
  let (r7, url_string) ← A.opt url_flag (do
    let (s0, n) ← read_uint 8
    let (s1, url) ← A.read_vector_uint 8 n.toNat
    pure (s0 + s1, url)) []
  let (r8, OCRESID) ← R.opt ocr_stream_flag (read_uint 16) g.OCRESID
  let f : ESFields := { sub_descriptors_size := 0, ESID, stream_dependence_flag, url_flag, ocr_stream_flag,
                        stream_priority, depends_on_esid, url_string, OCRESID }
  pure (r0 + r1 + r2 + r3 + r4 + r5 + r6 + r7 + r8,
    .es { f with sub_descriptors_size := size - f.getDataSize } [])

/-- `readInfo` (src/box/esds.cpp:236-240, 272-276) with its allocations. -/
def readInfoA (mk : List Byte → Descriptor) : A (Nat × Descriptor) := do
  let (r0, size) ← read_uvarint 32
  let (r1, data) ← A.read_vector_uint 8 size.toNat
  pure (r0 + r1, mk data)

/-- `Esds.readGo` (src/box/esds.cpp:319-346) with its allocations. -/
def Esds.readGoA (g : ESJunk) (fb : FullBox) : Nat → Nat → List Descriptor → A (Nat × Esds)
  | 0, rbits, acc => pure (rbits, ⟨fb, acc⟩)
  | fuel + 1, rbits, acc => do
    let offset_to_end ← R.offsetToEnd
    if offset_to_end = 0 then pure (rbits, ⟨fb, acc⟩)
    else do
      let (r, tag) ← read_int 8
      if tag = 0x03#8 then do
        let (s, p) ← ESFields.readDataA g
        Esds.readGoA g fb fuel (rbits + r + s) (acc ++ [p])
      else if tag = 0x04#8 then do
        let (s, p) ← DecConfigFields.readData
        Esds.readGoA g fb fuel (rbits + r + s) (acc ++ [p])
      else if tag = 0x05#8 then do
        let (s, p) ← readInfoA .decSpecific
        Esds.readGoA g fb fuel (rbits + r + s) (acc ++ [p])
      else if tag = 0x06#8 then do
        let (s, p) ← readInfoA .slConfig
        Esds.readGoA g fb fuel (rbits + r + s) (acc ++ [p])
      else pure (rbits + r + offset_to_end * 8, ⟨fb, acc⟩)

/-- `Esds.readData` (src/box/esds.cpp:315-348) with its allocations. -/
def Esds.readDataA (g : ESJunk) : A (Nat × Esds) := do
  let (r, fb) ← FullBox.readVersionAndFlag
  let n ← R.offsetToEnd
  Esds.readGoA g fb (n + 1) r []

/-- Virtual `Box::readData` on a fresh object of class `k`, as `BoxData.readData`, with its allocations. -/
def BoxData.readDataA (env : Env) (t : BoxType) (wave : Bool) : Kind → A (Nat × BoxData)
  | .btrt => ((A.lift (Btrt.readData)).bind fun x => .ret (x.1, .btrt x.2))
  | .pasp => ((A.lift (Pasp.readData)).bind fun x => .ret (x.1, .pasp x.2))
  | .fiel => ((A.lift (Fiel.readData)).bind fun x => .ret (x.1, .fiel x.2))
  | .smhd => ((A.lift (Smhd.readData)).bind fun x => .ret (x.1, .smhd x.2))
  | .vmhd => ((A.lift (Vmhd.readData)).bind fun x => .ret (x.1, .vmhd x.2))
  | .mfhd => ((A.lift (Mfhd.readData)).bind fun x => .ret (x.1, .mfhd x.2))
  | .mfro => ((A.lift (Mfro.readData)).bind fun x => .ret (x.1, .mfro x.2))
  | .dref => ((A.lift (Dref.readData)).bind fun x => .ret (x.1, .dref x.2))
  | .stsd => ((A.lift (Stsd.readData)).bind fun x => .ret (x.1, .stsd x.2))
  | .trex => ((A.lift (Trex.readData)).bind fun x => .ret (x.1, .trex x.2))
  | .iods => ((A.lift (Iods.readData)).bind fun x => .ret (x.1, .iods x.2))
  | .mvhd => ((A.lift (Mvhd.readData)).bind fun x => .ret (x.1, .mvhd x.2))
  | .tkhd => ((A.lift (Tkhd.readData)).bind fun x => .ret (x.1, .tkhd x.2))
  | .mdhd => ((A.lift (Mdhd.readData)).bind fun x => .ret (x.1, .mdhd x.2))
  | .mehd => ((A.lift (Mehd.readData)).bind fun x => .ret (x.1, .mehd x.2))
  | .tfdt => ((A.lift (Tfdt.readData)).bind fun x => .ret (x.1, .tfdt x.2))
  | .elst => ((Elst.readDataA).bind fun x => .ret (x.1, .elst x.2))
  | .sidx => ((Sidx.readDataA).bind fun x => .ret (x.1, .sidx x.2))
  | .stts => ((Stts.readDataA).bind fun x => .ret (x.1, .stts x.2))
  | .ctts => ((Ctts.readDataA).bind fun x => .ret (x.1, .ctts x.2))
  | .stsc => ((Stsc.readDataA).bind fun x => .ret (x.1, .stsc x.2))
  | .stco => ((Stco.readDataA).bind fun x => .ret (x.1, .stco x.2))
  | .co64 => ((Co64.readDataA).bind fun x => .ret (x.1, .co64 x.2))
  | .stss => ((Stss.readDataA).bind fun x => .ret (x.1, .stss x.2))
  | .stsz => ((Stsz.readDataA).bind fun x => .ret (x.1, .stsz x.2))
  | .sdtp => ((Sdtp.readDataA).bind fun x => .ret (x.1, .sdtp x.2))
  | .sbgp => ((Sbgp.readDataA env.sbgp).bind fun x => .ret (x.1, .sbgp x.2))
  | .tfhd => ((A.lift (Tfhd.readData env.tfhd)).bind fun x => .ret (x.1, .tfhd x.2))
  | .tfra => ((Tfra.readDataA).bind fun x => .ret (x.1, .tfra x.2))
  | .trun => ((Trun.readDataA env.trun).bind fun x => .ret (x.1, .trun x.2))
  | .avcC => ((AvcC.readDataA env.avcC).bind fun x => .ret (x.1, .avcC x.2))
  | .av1C => ((Av1C.readDataA).bind fun x => .ret (x.1, .av1C x.2))
  | .vpcC => ((VpcC.readDataA).bind fun x => .ret (x.1, .vpcC x.2))
  | .dOps => ((DOps.readDataA).bind fun x => .ret (x.1, .dOps x.2))
  | .visual => ((A.lift (VisualSampleEntry.readData t)).bind fun x => .ret (x.1, .visual x.2))
  | .audio => ((AudioSampleEntry.readDataA { env.audio with type := t, under_wave := wave }).bind fun x => .ret (x.1, .audio x.2))
  | .hdlr => ((Hdlr.readDataA).bind fun x => .ret (x.1, .hdlr x.2))
  | .url => ((A.lift (Url.readData env.url)).bind fun x => .ret (x.1, .url x.2))
  | .urn => ((A.lift (Urn.readData env.urn)).bind fun x => .ret (x.1, .urn x.2))
  | .emsg => ((Emsg.readDataA).bind fun x => .ret (x.1, .emsg x.2))
  | .data => ((Data.readDataA).bind fun x => .ret (x.1, .data x.2))
  | .colr => ((Colr.readDataA env.colr).bind fun x => .ret (x.1, .colr x.2))
  | .pssh => ((Pssh.readDataA env.pssh).bind fun x => .ret (x.1, .pssh x.2))
  | .ftyp => ((Ftyp.readDataA).bind fun x => .ret (x.1, .ftyp x.2))
  | .metaBox => ((A.lift (Meta.readData)).bind fun x => .ret (x.1, .metaBox x.2))
  | .opaq => ((Opaque.readDataA).bind fun x => .ret (x.1, .opaq x.2))
  | .esds => ((Esds.readDataA env.esds).bind fun x => .ret (x.1, .esds x.2))
  | .sgpd => ((Sgpd.readDataA env.sgpd).bind fun x => .ret (x.1, .sgpd x.2))
  | .empty => .ret (0, .empty)

namespace SimpleReader

/-- As `readContent` (src/reader/reader.cpp:49-76). -/
def readContentA (sr : SimpleReader) (g : A.Policy) (wave : Bool) (header : BoxHeader) (log : List Nat) : Except Err (Box × Nat) × List Nat :=
  let remaining_size := sub64 (sub64 sr.data.length header.offset) header.headerSize
  if header.getDataSize > remaining_size then
    (.error (.exc "corrupt file? box data size is greater than remaining_size"), log)
  else
    let ss := slice sr.data (header.offset + header.headerSize) header.getDataSize
    let k := sr.classOf header.type
    match (BoxData.readDataA (sr.env header.offset) k.2 wave k.1).runC g (Reader.new ⟨ss, 0⟩) log with
    | (.error e, log) => (.error e, log)
    | (.ok ((rbits, data), _), log) =>
      let rbytes := rbits / 8
      if sr.file = false ∧ sr.data.length < header.offset + header.headerSize + rbytes then
        (.error (.exc "SimpleReader::readBox(): istream::seekg() failed"), log)
      else (.ok (⟨k.2, data, some header⟩, rbytes), log)

/-- As `readLoop` (src/reader/reader.cpp:38-41, 78-80). -/
def readLoopA (readBox : Nat → List Nat → Option (Run (Nat × Tree × Nat) × List Nat)) (limit : Nat) :
    Nat → Nat → Nat → List Nat → Option (Run (List Tree × Nat) × List Nat)
  | 0, _, _, _ => none
  | fuel + 1, done, pos, log =>
    if limit > done then
      match readBox pos log with
      | none => none
      | some (⟨vs, .error e⟩, log) => some (⟨vs, .error e⟩, log)
      | some (⟨vs, .ok (size, t, pos')⟩, log) =>
        match readLoopA readBox limit fuel (u64 (done + size)) pos' log with
        | none => none
        | some (⟨ws, .error e⟩, log) => some (⟨vs ++ ws, .error e⟩, log)
        | some (⟨ws, .ok (ts, pos'')⟩, log) => some (⟨vs ++ ws, .ok (t :: ts, pos'')⟩, log)
    else some (⟨[], .ok ([], pos)⟩, log)

/-- As `onHeader`. -/
def onHeaderA {α : Type} (h : Except Err BoxHeader) (k : BoxHeader → List Nat → Option (Run α × List Nat)) (log : List Nat) :
    Option (Run α × List Nat) :=
  match h with
  | .error e => some (⟨[], .error e⟩, log)
  | .ok header => k header log

/-- `SimpleReader::readBox` from the creation of the `BoxInfo` on (src/reader/reader.cpp:75-82): the result of `readContentA` is given, and
the loop over the children. -/
def onContentA (header : BoxHeader) (path : List BoxType) (content : Except Err (Box × Nat) × List Nat)
    (children : Box → Nat → List Nat → Option (Run (List Tree × Nat) × List Nat)) : Option (Run (Nat × Tree × Nat) × List Nat) :=
  match content with
  | (.error e, log) => some (⟨[header], .error e⟩, log)
  | (.ok (box, rbytes), log) =>
    match children box rbytes log with
    | none => none
    | some (⟨vs, .error e⟩, log) => some (⟨header :: vs, .error e⟩, log)
    | some (⟨vs, .ok (leafs, pos')⟩, log) =>
      some (⟨header :: vs, .ok (header.size, .node box (path ++ [box.type]) leafs, pos')⟩, log)

/-- As `readBoxBody` (src/reader/reader.cpp:47-82). -/
def readBoxBodyA (sr : SimpleReader) (g : A.Policy) (self : List BoxType → Bool → Nat → List Nat → Option (Run (Nat × Tree × Nat) × List Nat))
    (fuel : Nat) (path : List BoxType) (wave : Bool) (pos : Nat) (log : List Nat) : Option (Run (Nat × Tree × Nat) × List Nat) :=
  onHeaderA (read_box_header ⟨sr.data, pos⟩) (fun header log =>
    onContentA header path (sr.readContentA g wave header log) fun box rbytes log =>
      readLoopA (self (path ++ [box.type]) (box.type = fourcc "wave")) header.getDataSize fuel rbytes
          (header.offset + header.headerSize + rbytes) log) log

/-- As `readBox` (src/reader/reader.cpp:47-82). -/
def readBoxA (sr : SimpleReader) (g : A.Policy) : Nat → List BoxType → Bool → Nat → List Nat → Option (Run (Nat × Tree × Nat) × List Nat)
  | 0 => fun _ _ _ _ => none
  | fuel + 1 => fun path wave pos log => sr.readBoxBodyA g (readBoxA sr g fuel) fuel path wave pos log

/-- `SimpleReader::read` (src/reader/reader.cpp:37-45) with an allocator that may refuse: how it ends, and the requests it made. -/
def readA (sr : SimpleReader) (g : A.Policy) : Option (Run (List Tree) × List Nat) :=
  match readLoopA (sr.readBoxA g (sr.data.length + 2) [] false) sr.data.length (sr.data.length + 2) 0 0 [] with
  | none => none
  | some (⟨vs, .error e⟩, log) => some (⟨vs, .error e⟩, log)
  | some (⟨vs, .ok (ts, _)⟩, log) => some (⟨vs, .ok ts⟩, log)

end SimpleReader
end Mp4
