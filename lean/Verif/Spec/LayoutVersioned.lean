import Verif.Model.Boxes.Versioned

/-! # File format of the boxes with 32/64-bit variants (ISO/IEC 14496-12) -/

namespace Mp4.Layout
open Mp4

/-- A time or duration: 32 bits in version 0, 64 bits otherwise. -/
def time (fb : FullBox) (v : BitVec 64) : List Bool := if fb.version = 0#8 then ubits 32 v else bits v

/-- A signed time: 32 bits in version 0, 64 bits otherwise. -/
def stime (fb : FullBox) (v : BitVec 64) : List Bool := if fb.version = 0#8 then sbits 32 v else bits v

def mvhd (b : Mvhd) := fbits b.toFullBox ++ time b.toFullBox b.creation_time ++
  time b.toFullBox b.modification_time ++ bits b.timescale ++ time b.toFullBox b.duration ++ bits b.rate ++
  bits b.volume ++ bits b.reserved ++ bits b.reserved2 ++ bits b.reserved3 ++ vbits b.matrix ++
  vbits b.pre_defined ++ bits b.next_track_id

def tkhd (b : Tkhd) := fbits b.toFullBox ++ time b.toFullBox b.creation_time ++
  time b.toFullBox b.modification_time ++ bits b.track_id ++ bits b.reserved ++ time b.toFullBox b.duration ++
  bits b.reserved2 ++ bits b.reserved3 ++ bits b.layer ++ bits b.alternate_group ++ bits b.volume ++
  bits b.reserved4 ++ vbits b.matrix ++ bits b.width ++ bits b.height

/-- Language: three letters, five bits each, as the difference to 0x60. -/
def language (l : Arr3) : List Bool :=
  ubits 5 (l.b0 - 0x60#8) ++ ubits 5 (l.b1 - 0x60#8) ++ ubits 5 (l.b2 - 0x60#8)

def mdhd (b : Mdhd) := fbits b.toFullBox ++ time b.toFullBox b.creation_time ++
  time b.toFullBox b.modification_time ++ bits b.timescale ++ time b.toFullBox b.duration ++ bbit b.pad ++
  language b.language ++ bits b.pre_defined

def mehd (b : Mehd) := fbits b.toFullBox ++ time b.toFullBox b.fragment_duration
def tfdt (b : Tfdt) := fbits b.toFullBox ++ time b.toFullBox b.base_media_decode_time

def elstEntry (fb : FullBox) (e : ElstEntry) :=
  time fb e.track_duration ++ stime fb e.media_time ++ bits e.media_rate
def elst (b : Elst) := fbits b.toFullBox ++ cbits 32 b.entries.length ++ b.entries.flatMap (elstEntry b.toFullBox)

def sidxReference (r : SidxReference) := bbit r.reference_type ++ ubits 31 r.reference_size ++
  bits r.subsegument_duration ++ bbit r.starts_with_sap ++ ubits 3 r.sap_type ++ ubits 28 r.sap_delta_time
def sidx (b : Sidx) := fbits b.toFullBox ++ bits b.reference_id ++ bits b.timescale ++
  time b.toFullBox b.earliest_presentation_time ++ time b.toFullBox b.first_offset ++ bits b.reserved ++
  cbits 16 b.references.length ++ b.references.flatMap sidxReference

end Mp4.Layout

/-! ### Which values are representable, and what a reader object ends up with -/

namespace Mp4

/-- Version 0 stores only 32 bits of a 64-bit field. -/
def TimeFits (fb : FullBox) (v : BitVec 64) : Prop := fb.version = 0#8 → v.toNat < 2 ^ 32

/-- Same for a signed field. -/
def STimeFits (fb : FullBox) (v : BitVec 64) : Prop := fb.version = 0#8 → SFits 32 v

/-- The letters of a language code: 0x60 to 0x7f, so that the difference to 0x60 has five bits. -/
def LangOk (l : Arr3) : Prop :=
  (0x60 ≤ l.b0.toNat ∧ l.b0.toNat < 0x80) ∧ (0x60 ≤ l.b1.toNat ∧ l.b1.toNat < 0x80) ∧
  (0x60 ≤ l.b2.toNat ∧ l.b2.toNat < 0x80)

/-- What an edit list entry must satisfy to be representable. -/
def ElstEntry.Fits (fb : FullBox) (e : ElstEntry) : Prop := TimeFits fb e.track_duration ∧ STimeFits fb e.media_time

/-- Bit-field ranges of a segment index reference. -/
def SidxReference.Fits (r : SidxReference) : Prop :=
  r.reference_size.toNat < 2 ^ 31 ∧ r.sap_type.toNat < 2 ^ 3 ∧ r.sap_delta_time.toNat < 2 ^ 28

end Mp4
