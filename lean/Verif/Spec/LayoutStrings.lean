import Verif.Model.Boxes.Strings

/-! # File format of the text and metadata boxes (ISO/IEC 14496-12, QuickTime metadata) -/

namespace Mp4
/-- A NUL-terminated string. -/
def strBits (s : List Byte) : List Bool := s.flatMap bits ++ bits 0#8
end Mp4

namespace Mp4.Layout
open Mp4

def hdlr (b : Hdlr) := fbits b.toFullBox ++ bits b.pre_defined ++ code4 b.handler_type ++ code4 b.manufacturer ++
  code4 b.hflags ++ code4 b.flags_mask ++ strBits b.name ++ b.padding.flatMap bits

/-- Flag 1: the media data is in the same file and no location follows. -/
def url (b : Url) := fbits b.toFullBox ++ onlyIf (!b.toFullBox.selfContained) (strBits b.location)

def urn (b : Urn) := fbits b.toFullBox ++
  onlyIf (!b.toFullBox.selfContained) (strBits b.name ++ strBits b.location)

/-- Version 0 has the strings first and a 32-bit time, other versions a 64-bit time and the strings last. -/
def emsg (b : Emsg) := fbits b.toFullBox ++
  (if b.version = 0 then
    strBits b.scheme_uri ++ strBits b.value ++ bits b.timescale ++ ubits 32 b.presentation_time ++
    bits b.event_duration ++ bits b.id
  else
    bits b.timescale ++ bits b.presentation_time ++ bits b.event_duration ++ bits b.id ++
    strBits b.scheme_uri ++ strBits b.value) ++ b.message_data.flatMap bits

def data (b : Data) := bits b.data_type ++ bits b.data_lang ++ b.data.flatMap bits

def colr (b : Colr) := code4 b.colour_type ++
  (if Colr.isNclx b.colour_type then
    bits b.colour_primaries ++ bits b.transfer_characteristics ++ bits b.matrix_coefficients ++
    bbit b.full_range_flag ++ ubits 7 b.reserved
  else if Colr.isProfile b.colour_type then b.profile.flatMap bits
  else b.unknown.flatMap bits)

def pssh (b : Pssh) := fbits b.toFullBox ++ vbits b.system_id ++
  onlyIf (decide (b.version ≠ 0)) (cbits 32 b.kids.length ++ b.kids.flatMap vbits) ++
  cbits 32 b.data.length ++ b.data.flatMap bits

def ftyp (b : Ftyp) := code4 b.major_brand ++ bits b.minor_version ++ b.compatible_brands.flatMap code4

def «meta» (b : Meta) := fbits b.toFullBox

def «opaque» (b : Opaque) := b.data.flatMap bits

end Mp4.Layout

/-! ### Which values are representable, and what a reader object ends up with -/

namespace Mp4

/-- A string that contains no NUL byte. -/
def NoNul (s : List Byte) : Prop := ∀ c ∈ s, c ≠ 0

/-- What a reader object ends up with. -/
def Url.stored (b old : Url) : Url := if b.toFullBox.selfContained then { b with location := old.location } else b

/-- What a reader object ends up with. -/
def Urn.stored (b old : Urn) : Urn :=
  if b.toFullBox.selfContained then { b with name := old.name, location := old.location } else b

/-- What a reader object ends up with: only the fields of the branch taken are read. -/
def Colr.stored (b old : Colr) : Colr :=
  if Colr.isNclx b.colour_type then { b with profile := old.profile, unknown := old.unknown }
  else if Colr.isProfile b.colour_type then { old with colour_type := b.colour_type, profile := b.profile }
  else { old with colour_type := b.colour_type, unknown := b.unknown }

/-- What a reader object ends up with: version 0 has no key ids. -/
def Pssh.stored (b old : Pssh) : Pssh := if b.version = 0 then { b with kids := old.kids } else b

end Mp4
