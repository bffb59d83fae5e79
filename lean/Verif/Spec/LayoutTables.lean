import Verif.Model.Boxes.Tables

/-! # File format of the sample tables (ISO/IEC 14496-12) -/

namespace Mp4.Layout
open Mp4

def sttsEntry (e : SttsEntry) := bits e.sample_count ++ bits e.sample_duration
def stts (b : Stts) := fbits b.toFullBox ++ cbits 32 b.entries.length ++ b.entries.flatMap sttsEntry

def cttsEntry (e : CttsEntry) := bits e.sample_count ++ sbits 32 e.sample_offset
def ctts (b : Ctts) := fbits b.toFullBox ++ cbits 32 b.entries.length ++ b.entries.flatMap cttsEntry

def stscEntry (e : StscEntry) := bits e.first_chunk ++ bits e.samples_per_chunk ++ bits e.sample_description_index
def stsc (b : Stsc) := fbits b.toFullBox ++ cbits 32 b.entries.length ++ b.entries.flatMap stscEntry

def stco (b : Stco) := fbits b.toFullBox ++ cbits 32 b.chunk_offsets.length ++ b.chunk_offsets.flatMap bits
def co64 (b : Co64) := fbits b.toFullBox ++ cbits 32 b.chunk_offsets.length ++ b.chunk_offsets.flatMap bits
def stss (b : Stss) := fbits b.toFullBox ++ cbits 32 b.sample_numbers.length ++ b.sample_numbers.flatMap bits

/-- The table of sizes is present only when the common size is 0. -/
def stsz (b : Stsz) := fbits b.toFullBox ++ bits b.sample_size ++ cbits 32 b.entry_sizes.length ++
  (if b.sample_size = 0#32 then b.entry_sizes.flatMap bits else [])

def sdtpSample (s : SdtpSample) := ubits 2 s.is_leading ++ ubits 2 s.sample_depends_on ++
  ubits 2 s.sample_is_depended_on ++ ubits 2 s.sample_has_redundancy
def sdtp (b : Sdtp) := fbits b.toFullBox ++ b.samples.flatMap sdtpSample

def sbgpEntry (e : SbgpEntry) := bits e.sample_count ++ bits e.group_description_index
def sbgp (b : Sbgp) := fbits b.toFullBox ++ code4 b.grouping_type ++
  onlyIf (b.version ≠ 0#8) (bits b.grouping_type_parameter) ++ cbits 32 b.entries.length ++
  b.entries.flatMap sbgpEntry

end Mp4.Layout

/-! ### Which values are representable, and what a reader object ends up with -/

namespace Mp4

/-- Two-bit ranges. -/
def SdtpSample.Fits (s : SdtpSample) : Prop :=
  s.is_leading.toNat < 2 ^ 2 ∧ s.sample_depends_on.toNat < 2 ^ 2 ∧ s.sample_is_depended_on.toNat < 2 ^ 2 ∧
  s.sample_has_redundancy.toNat < 2 ^ 2

end Mp4
