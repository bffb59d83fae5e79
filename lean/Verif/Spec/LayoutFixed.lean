import Verif.Model.Boxes.Fixed

/-!
# File format of the fixed boxes (ISO/IEC 14496-12, QuickTime)

Each definition lists the fields of the box payload in order, as bits, most significant bit first:
`bits x` a full-width field, `ubits n x` an `n`-bit unsigned field, `sbits n x` an `n`-bit two's complement field,
`vbits` a fixed array, `fbits` version (8) and flags (24), `lenBits` an expandable size in four bytes.
-/

namespace Mp4.Layout
open Mp4

def btrt (b : Btrt) := bits b.decoding_buffer_size ++ bits b.max_bitrate ++ bits b.avg_bitrate
def pasp (b : Pasp) := bits b.h_spacing ++ bits b.v_spacing
def fiel (b : Fiel) := bits b.field_count ++ bits b.field_ordering
def smhd (b : Smhd) := fbits b.toFullBox ++ bits b.balance ++ bits b.reserved
def vmhd (b : Vmhd) := fbits b.toFullBox ++ bits b.graphicsmode ++ vbits b.opcolor
def mfhd (b : Mfhd) := fbits b.toFullBox ++ bits b.sequence_number
def mfro (b : Mfro) := fbits b.toFullBox ++ bits b.size
def dref (b : Dref) := fbits b.toFullBox ++ bits b.entry_count
def stsd (b : Stsd) := fbits b.toFullBox ++ bits b.entry_count
def trex (b : Trex) := fbits b.toFullBox ++ bits b.track_id ++ bits b.default_sample_description_index ++
  bits b.default_sample_duration ++ bits b.default_sample_size ++ bits b.default_sample_flags
def iods (b : Iods) := fbits b.toFullBox ++ bits b.type_tag ++ lenBits b.descriptor_length ++ bits b.od_id ++
  bits b.od_profile_level ++ bits b.scene_profile_level ++ bits b.audio_profile_level ++
  bits b.video_profile_level ++ bits b.graphics_profile_level

end Mp4.Layout
