import Verif.Spec.Movie

/-! # What fits into the fields of codec configurations -/

namespace Mp4.Spec

/-- The values of a codec configuration fit the widths of the fields that carry them: five bits for the number of sequence parameter sets, eight
for the number of picture parameter sets, 16 for the size of each (ISO/IEC 14496-15, 5.3.3.1); 3, 5, 1, 1, 1, 2, 3, 4 bits of `av1C`; 24 bits for
the buffer size of a decoder configuration (ISO/IEC 14496-1, 7.2.6.6). -/
def InRange : BoxData → Prop
  | .avcC c => c.sequence_parameter_sets.length < 32 ∧ (∀ n ∈ c.sequence_parameter_sets, n.length < 2 ^ 16) ∧
      c.picture_parameter_sets.length < 256 ∧ ∀ n ∈ c.picture_parameter_sets, n.length < 2 ^ 16
  | .av1C c => c.seq_profile.toNat < 2 ^ 3 ∧ c.seq_level_idx_0.toNat < 2 ^ 5 ∧ c.seq_tier_0.toNat < 2 ∧
      c.chroma_subsampling_x.toNat < 2 ∧ c.chroma_subsampling_y.toNat < 2 ∧ c.chroma_sample_position.toNat < 2 ^ 2
  | .esds e => ∀ f subs, Descriptor.decConfig f subs ∈ e.descriptors → f.buffer_size_db.toNat < 2 ^ 24
  | _ => True

/-- What a program hands to an H.264 track consists of byte streams (ITU-T H.264 Annex B) of well-formed NAL units. -/
def WellFormedBuffers (a : TrackAsked) : Prop :=
  match a.codec with
  | .h264 .. => ∃ uss : List (List (Bool × List Byte)), a.buffers = uss.map annexB ∧ ∀ us ∈ uss, Units us
  | _ => True

end Mp4.Spec
