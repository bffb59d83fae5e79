import Verif.Model.Boxes.SampleEntries

/-! # File format of sample entries (ISO/IEC 14496-12 8.5.2, QuickTime sound description) -/

namespace Mp4.Layout
open Mp4

def visualSampleEntry (b : VisualSampleEntry) := vbits b.reserved ++ bits b.data_reference_index ++
  bits b.pre_defined ++ bits b.reserved2 ++ vbits b.pre_defined2 ++ bits b.width ++ bits b.height ++
  bits b.horizresolution ++ bits b.vertresolution ++ bits b.reserved3 ++ bits b.frame_count ++
  vbits b.compressorname ++ bits b.depth ++ bits b.pre_defined3

def audioSampleEntry (b : AudioSampleEntry) := vbits b.reserved ++ bits b.data_reference_index ++
  bits b.entry_version ++ vbits b.reserved2 ++ bits b.channel_count ++ bits b.sample_size ++ bits b.pre_defined ++
  bits b.reserved3 ++ bits b.sample_rate ++ onlyIf b.is_quick_time_compatible (b.quick_time_data.flatMap bits)

end Mp4.Layout

/-! ### Which values are representable, and what a reader object ends up with -/

namespace Mp4

/-- The object `old` is turned into by reading the bytes of `b`, when no QuickTime extension is read. -/
def AudioSampleEntry.plain (b old : AudioSampleEntry) : AudioSampleEntry :=
  { b with type := old.type, is_quick_time_compatible := false, quick_time_data := old.quick_time_data,
           under_wave := old.under_wave }

end Mp4
