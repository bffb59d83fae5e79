import Verif.BitIO.BoxTools

/-! # Sample tables -/

namespace Mp4

/-- `SttsEntry` (src/box/stts.cpp:70-71). -/
structure SttsEntry where
  sample_count : BitVec 32
  sample_duration : BitVec 32
  deriving DecidableEq, Repr

/-- src/box/stts.cpp:77-80 -/
def SttsEntry.writeData (e : SttsEntry) : W Nat := do
  pure ((← write_uint e.sample_count) + (← write_uint e.sample_duration))

/-- src/box/stts.cpp:82-85 -/
def SttsEntry.readData : R (Nat × SttsEntry) := do
  let (r0, a) ← read_uint 32
  let (r1, b) ← read_uint 32
  pure (r0 + r1, ⟨a, b⟩)

/-- `Stts` (src/box/stts.cpp:22-30). -/
structure Stts extends FullBox where
  entries : List SttsEntry
  deriving DecidableEq, Repr

/-- src/box/stts.cpp:44-52 -/
def Stts.writeData (b : Stts) : W Nat := do
  let mut wbits ← b.writeVersionAndFlag
  wbits := wbits + (← write_uint (BitVec.ofNat 32 b.entries.length))
  wbits := wbits + (← writeList SttsEntry.writeData b.entries)
  pure wbits

/-- src/box/stts.cpp:54-56 -/
def Stts.getDataSize (b : Stts) : Nat := 8 + 8 * b.entries.length

/-- src/box/stts.cpp:58-68 -/
def Stts.readData : R (Nat × Stts) := do
  let (rbits, fb) ← FullBox.readVersionAndFlag
  let (r0, entry_count) ← read_uint 32
  let (r1, es) ← readN SttsEntry.readData entry_count.toNat
  pure (rbits + r0 + r1, ⟨fb, es⟩)

/-- `CttsEntry` (include/shiguredo/mp4/box/ctts.hpp:32-33). -/
structure CttsEntry where
  sample_count : BitVec 32
  sample_offset : BitVec 64
  deriving DecidableEq

/-- src/box/ctts.cpp:30-34 -/
def CttsEntry.writeData (e : CttsEntry) : W Nat := do
  let mut wbits ← write_uint e.sample_count
  wbits := wbits + (← write_int e.sample_offset 32)
  pure wbits

/-- src/box/ctts.cpp:36-40 -/
def CttsEntry.readData : R (Nat × CttsEntry) := do
  let (r0, a) ← read_uint 32
  let (r1, b) ← read_int 64 32
  pure (r0 + r1, ⟨a, b⟩)

/-- `Ctts` (src/box/ctts.cpp:46-54). -/
structure Ctts extends FullBox where
  entries : List CttsEntry
  deriving DecidableEq

/-- src/box/ctts.cpp:65-72 -/
def Ctts.writeData (b : Ctts) : W Nat := do
  let mut wbits ← b.writeVersionAndFlag
  wbits := wbits + (← write_uint (BitVec.ofNat 32 b.entries.length))
  wbits := wbits + (← writeList CttsEntry.writeData b.entries)
  pure wbits

/-- src/box/ctts.cpp:74-84 -/
def Ctts.readData : R (Nat × Ctts) := do
  let (rbits, fb) ← FullBox.readVersionAndFlag
  let (r0, entry_count) ← read_uint 32
  let (r1, es) ← readN CttsEntry.readData entry_count.toNat
  pure (rbits + r0 + r1, ⟨fb, es⟩)

/-- src/box/ctts.cpp:86-88 -/
def Ctts.getDataSize (b : Ctts) : Nat := 8 + 8 * b.entries.length

/-- `StscEntry` (src/box/stsc.cpp:70-73). -/
structure StscEntry where
  first_chunk : BitVec 32
  samples_per_chunk : BitVec 32
  sample_description_index : BitVec 32
  deriving DecidableEq, Repr

/-- src/box/stsc.cpp:80-84 -/
def StscEntry.writeData (e : StscEntry) : W Nat := do
  pure ((← write_uint e.first_chunk) + (← write_uint e.samples_per_chunk) +
    (← write_uint e.sample_description_index))

/-- src/box/stsc.cpp:86-90 -/
def StscEntry.readData : R (Nat × StscEntry) := do
  let (r0, a) ← read_uint 32
  let (r1, b) ← read_uint 32
  let (r2, c) ← read_uint 32
  pure (r0 + r1 + r2, ⟨a, b, c⟩)

/-- `Stsc` (src/box/stsc.cpp:22-30). -/
structure Stsc extends FullBox where
  entries : List StscEntry
  deriving DecidableEq, Repr

/-- src/box/stsc.cpp:44-52 -/
def Stsc.writeData (b : Stsc) : W Nat := do
  let mut wbits ← b.writeVersionAndFlag
  wbits := wbits + (← write_uint (BitVec.ofNat 32 b.entries.length))
  wbits := wbits + (← writeList StscEntry.writeData b.entries)
  pure wbits

/-- src/box/stsc.cpp:54-56 -/
def Stsc.getDataSize (b : Stsc) : Nat := 8 + 12 * b.entries.length

/-- src/box/stsc.cpp:58-68 -/
def Stsc.readData : R (Nat × Stsc) := do
  let (rbits, fb) ← FullBox.readVersionAndFlag
  let (r0, entry_count) ← read_uint 32
  let (r1, es) ← readN StscEntry.readData entry_count.toNat
  pure (rbits + r0 + r1, ⟨fb, es⟩)

/-- `Stco` (src/box/stco.cpp:22-30). -/
structure Stco extends FullBox where
  chunk_offsets : List (BitVec 32)
  deriving DecidableEq, Repr

/-- src/box/stco.cpp:38-43 -/
def Stco.writeData (b : Stco) : W Nat := do
  let wbits ← b.writeVersionAndFlag
  pure (wbits + (← write_uint (BitVec.ofNat 32 b.chunk_offsets.length)) + (← write_vector_uint b.chunk_offsets))

/-- src/box/stco.cpp:45-51 -/
def Stco.readData : R (Nat × Stco) := do
  let (rbits, fb) ← FullBox.readVersionAndFlag
  let (r0, entry_count) ← read_uint 32
  let (r1, l) ← read_vector_uint 32 entry_count.toNat
  pure (rbits + r0 + r1, ⟨fb, l⟩)

/-- src/box/stco.cpp:53-55 -/
def Stco.getDataSize (b : Stco) : Nat := 8 + b.chunk_offsets.length * 4

/-- `Co64` (src/box/co64.cpp:22-30). -/
structure Co64 extends FullBox where
  chunk_offsets : List (BitVec 64)
  deriving DecidableEq, Repr

/-- src/box/co64.cpp:38-44 -/
def Co64.writeData (b : Co64) : W Nat := do
  let mut wbits ← b.writeVersionAndFlag
  wbits := wbits + (← write_uint (BitVec.ofNat 32 b.chunk_offsets.length))
  wbits := wbits + (← write_vector_uint b.chunk_offsets)
  pure wbits

/-- src/box/co64.cpp:46-54 -/
def Co64.readData : R (Nat × Co64) := do
  let (rbits, fb) ← FullBox.readVersionAndFlag
  let (r0, entry_count) ← read_uint 32
  let (r1, l) ← read_vector_uint 64 entry_count.toNat
  pure (rbits + r0 + r1, ⟨fb, l⟩)

/-- src/box/co64.cpp:56-58 -/
def Co64.getDataSize (b : Co64) : Nat := 8 + b.chunk_offsets.length * 8

/-- `Stss` (src/box/stss.cpp:22-30). -/
structure Stss extends FullBox where
  sample_numbers : List (BitVec 32)
  deriving DecidableEq, Repr

/-- src/box/stss.cpp:38-44 -/
def Stss.writeData (b : Stss) : W Nat := do
  let wbits ← b.writeVersionAndFlag
  pure (wbits + ((← write_uint (BitVec.ofNat 32 b.sample_numbers.length)) + (← write_vector_uint b.sample_numbers)))

/-- src/box/stss.cpp:46-48 -/
def Stss.getDataSize (b : Stss) : Nat := 8 + b.sample_numbers.length * 4

/-- src/box/stss.cpp:50-56 -/
def Stss.readData : R (Nat × Stss) := do
  let (rbits, fb) ← FullBox.readVersionAndFlag
  let (r0, entry_count) ← read_uint 32
  let (r1, l) ← read_vector_uint 32 entry_count.toNat
  pure (rbits + r0 + r1, ⟨fb, l⟩)

/-- `Stsz` (include/shiguredo/mp4/box/stsz.hpp:34-35). -/
structure Stsz extends FullBox where
  sample_size : BitVec 32
  entry_sizes : List (BitVec 32)
  deriving DecidableEq, Repr

/-- src/box/stsz.cpp:38-47 -/
def Stsz.writeData (b : Stsz) : W Nat := do
  let mut wbits ← b.writeVersionAndFlag
  wbits := wbits + (← write_uint b.sample_size)
  wbits := wbits + (← write_uint (BitVec.ofNat 32 b.entry_sizes.length))
  if b.sample_size = 0#32 then
    wbits := wbits + (← write_vector_uint b.entry_sizes)
  pure wbits

/-- src/box/stsz.cpp:49-51 -/
def Stsz.getDataSize (b : Stsz) : Nat := 12 + (if b.sample_size = 0#32 then 4 * b.entry_sizes.length else 0)

/-- src/box/stsz.cpp:53-65 -/
def Stsz.readData : R (Nat × Stsz) := do
  let (rbits, fb) ← FullBox.readVersionAndFlag
  let (r0, sample_size) ← read_uint 32
  let (r1, sample_count) ← read_uint 32
  if sample_size = 0#32 then do
    let (r2, l) ← read_vector_uint 32 sample_count.toNat
    pure (rbits + r0 + r1 + r2, ⟨fb, sample_size, l⟩)
  else pure (rbits + r0 + r1, ⟨fb, sample_size, []⟩)

/-- `SdtpSample` (include/shiguredo/mp4/box/sdtp.hpp:38-41). -/
structure SdtpSample where
  is_leading : Byte
  sample_depends_on : Byte
  sample_is_depended_on : Byte
  sample_has_redundancy : Byte
  deriving DecidableEq

/-- src/box/sdtp.cpp:78-84 -/
def SdtpSample.writeData (s : SdtpSample) : W Nat := do
  let mut wbits ← write_uint s.is_leading 2
  wbits := wbits + (← write_uint s.sample_depends_on 2)
  wbits := wbits + (← write_uint s.sample_is_depended_on 2)
  wbits := wbits + (← write_uint s.sample_has_redundancy 2)
  pure wbits

/-- src/box/sdtp.cpp:86-92 -/
def SdtpSample.readData : R (Nat × SdtpSample) := do
  let (r0, a) ← read_uint 8 2
  let (r1, b) ← read_uint 8 2
  let (r2, c) ← read_uint 8 2
  let (r3, d) ← read_uint 8 2
  pure (r0 + r1 + r2 + r3, ⟨a, b, c, d⟩)

/-- `Sdtp` (src/box/sdtp.cpp:23-29). -/
structure Sdtp extends FullBox where
  samples : List SdtpSample
  deriving DecidableEq

/-- src/box/sdtp.cpp:44-50 -/
def Sdtp.writeData (b : Sdtp) : W Nat := do
  let mut wbits ← b.writeVersionAndFlag
  wbits := wbits + (← writeList SdtpSample.writeData b.samples)
  pure wbits

/-- src/box/sdtp.cpp:52-61 -/
def Sdtp.readData : R (Nat × Sdtp) := do
  let (rbits, fb) ← FullBox.readVersionAndFlag
  let offset_to_end ← R.offsetToEnd
  let (r1, l) ← readN SdtpSample.readData offset_to_end
  pure (rbits + r1, ⟨fb, l⟩)

/-- src/box/sdtp.cpp:63-65 -/
def Sdtp.getDataSize (b : Sdtp) : Nat := 4 + b.samples.length

/-- `SbgpEntry` (include/shiguredo/mp4/box/sbgp.hpp:37-38). -/
structure SbgpEntry where
  sample_count : BitVec 32
  group_description_index : BitVec 32
  deriving DecidableEq

/-- src/box/sbgp.cpp:28-31 -/
def SbgpEntry.writeData (e : SbgpEntry) : W Nat := do
  let wbits ← write_uint e.sample_count
  pure (wbits + (← write_uint e.group_description_index))

/-- src/box/sbgp.cpp:33-36 -/
def SbgpEntry.readData : R (Nat × SbgpEntry) := do
  let (r0, a) ← read_uint 32
  let (r1, b) ← read_uint 32
  pure (r0 + r1, ⟨a, b⟩)

/-- `Sbgp` (include/shiguredo/mp4/box/sbgp.hpp:63-65). -/
structure Sbgp extends FullBox where
  grouping_type : Arr4
  grouping_type_parameter : BitVec 32
  entries : List SbgpEntry
  deriving DecidableEq

/-- src/box/sbgp.cpp:67-78 -/
def Sbgp.writeData (b : Sbgp) : W Nat := do
  let mut wbits ← b.writeVersionAndFlag
  wbits := wbits + (← write_array_uint8_4 b.grouping_type)
  wbits := wbits + (← W.opt (b.version ≠ 0#8) (write_uint b.grouping_type_parameter))
  wbits := wbits + (← write_uint (BitVec.ofNat 32 b.entries.length))
  wbits := wbits + (← writeList SbgpEntry.writeData b.entries)
  pure wbits

/-- src/box/sbgp.cpp:80-96.  In version 0 `m_grouping_type_parameter` keeps what the object held before, `old`. -/
def Sbgp.readData (old : BitVec 32) : R (Nat × Sbgp) := do
  let (rbits, fb) ← FullBox.readVersionAndFlag
  let (r0, grouping_type) ← read_array_uint8_4
  let (r1, p) ← R.opt (fb.version ≠ 0#8) (read_uint 32) old
  let (r2, size) ← read_uint 32
  let (r3, es) ← readN SbgpEntry.readData size.toNat
  pure (rbits + r0 + r1 + r2 + r3, ⟨fb, grouping_type, p, es⟩)

/-- src/box/sbgp.cpp:98-100 -/
def Sbgp.getDataSize (b : Sbgp) : Nat := 12 + 8 * b.entries.length + (if b.version = 0#8 then 0 else 4)

end Mp4
