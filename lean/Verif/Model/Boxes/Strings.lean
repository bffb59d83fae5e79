import Verif.BitIO.BoxTools
import Verif.Model.BoxType

/-! # Boxes with text and metadata: `hdlr`, `url `, `urn `, `emsg`, `data`, `colr`, `pssh`, `ftyp`, `styp`, `meta` -/

namespace Mp4

/-- `Hdlr` (include/shiguredo/mp4/box/hdlr.hpp:37-43).  `hflags` is the four byte `m_flags` of `Hdlr`, which hides
`FullBox::m_flags`. -/
structure Hdlr extends FullBox where
  pre_defined : BitVec 32
  handler_type : Arr4
  manufacturer : Arr4
  hflags : Arr4
  flags_mask : Arr4
  name : List Byte
  padding : List Byte
  deriving DecidableEq

/-- src/box/hdlr.cpp:43-53 -/
def Hdlr.writeData (b : Hdlr) : W Nat := do
  let mut wbits ← b.toFullBox.writeVersionAndFlag
  wbits := wbits + (← write_uint b.pre_defined)
  wbits := wbits + (← write_array_uint8_4 b.handler_type)
  wbits := wbits + (← write_array_uint8_4 b.manufacturer)
  wbits := wbits + (← write_array_uint8_4 b.hflags)
  wbits := wbits + (← write_array_uint8_4 b.flags_mask)
  wbits := wbits + (← write_string b.name)
  pure (wbits + (← write_vector_uint b.padding))

/-- src/box/hdlr.cpp:55-57 -/
def Hdlr.getDataSize (b : Hdlr) : Nat := 24 + b.name.length + 1 + b.padding.length

/-- src/box/hdlr.cpp:59-81.  The code really reads `offset_to_end * 8 - name_rbits` BYTES of padding. -/
def Hdlr.readData : R (Nat × Hdlr) := do
  let (r0, fb) ← FullBox.readVersionAndFlag
  let (r1, pre_defined) ← read_uint 32
  let (r2, handler_type) ← read_array_uint8_4
  let (r3, manufacturer) ← read_array_uint8_4
  let (r4, hflags) ← read_array_uint8_4
  let (r5, flags_mask) ← read_array_uint8_4
  let rbits := r0 + r1 + r2 + r3 + r4 + r5
  let offset_to_end ← R.offsetToEnd
  let (name_rbits, name) ←
    if pre_defined ≠ 0 then read_pascal_string (offset_to_end * 8) else read_string (offset_to_end * 8)
  if offset_to_end * 8 < name_rbits ∨ name_rbits % 8 ≠ 0 then
    .throw (.exc "Hdlr::readData(): invalid name_rbits")
  else do
    let (r6, padding) ← read_vector_uint 8 (offset_to_end * 8 - name_rbits)
    pure (rbits + name_rbits + r6,
      { toFullBox := fb, pre_defined, handler_type, manufacturer, hflags, flags_mask, name, padding })

/-- `Url` (include/shiguredo/mp4/box/url.hpp:34). -/
structure Url extends FullBox where
  location : List Byte
  deriving DecidableEq

/-- `checkFlag(UrlSelfContainedFlags)` / `checkFlag(UrnSelfContainedFlags)` (url.hpp, urn.hpp: both 0x000001). -/
def FullBox.selfContained (b : FullBox) : Bool := b.checkFlag 0x000001#32

/-- src/box/url.cpp:40-47 -/
def Url.writeData (b : Url) : W Nat := do
  let wbits ← b.toFullBox.writeVersionAndFlag
  pure (wbits + (← W.opt (!b.toFullBox.selfContained) (write_string b.location)))

/-- src/box/url.cpp:49-57 -/
def Url.readData (old : Url) : R (Nat × Url) := do
  let (r0, fb) ← FullBox.readVersionAndFlag
  if !fb.selfContained then do
    let offset_to_end ← R.offsetToEnd
    let (r1, location) ← read_string (offset_to_end * 8)
    pure (r0 + r1, { toFullBox := fb, location })
  else pure (r0, { toFullBox := fb, location := old.location })

/-- src/box/url.cpp:59-64 -/
def Url.getDataSize (b : Url) : Nat := if b.toFullBox.selfContained then 4 else 4 + b.location.length + 1

/-- `Urn` (include/shiguredo/mp4/box/urn.hpp:35-36). -/
structure Urn extends FullBox where
  name : List Byte
  location : List Byte
  deriving DecidableEq

/-- src/box/urn.cpp:40-49 -/
def Urn.writeData (b : Urn) : W Nat := do
  let wbits ← b.toFullBox.writeVersionAndFlag
  if b.toFullBox.selfContained then pure wbits
  else do
    let wbits := wbits + (← write_string b.name)
    pure (wbits + (← write_string b.location))

/-- src/box/urn.cpp:51-62.  `(offset_to_end - 1) * 8` wraps when nothing is left; `read_string` then runs into the end
of the stream, which the wrapped budget of 2^64-8 bits expresses. -/
def Urn.readData (old : Urn) : R (Nat × Urn) := do
  let (r0, fb) ← FullBox.readVersionAndFlag
  if fb.selfContained then pure (r0, { toFullBox := fb, name := old.name, location := old.location })
  else do
    let offset_to_end ← R.offsetToEnd
    let (name_rbits, name) ←
      read_string (if offset_to_end = 0 then 2 ^ 64 - 8 else (offset_to_end - 1) * 8)
    let (r1, location) ← read_string (offset_to_end * 8 - name_rbits)
    pure (r0 + name_rbits + r1, { toFullBox := fb, name, location })

/-- src/box/urn.cpp:64-69 -/
def Urn.getDataSize (b : Urn) : Nat :=
  if b.toFullBox.selfContained then 4 else 4 + b.name.length + 1 + b.location.length + 1

/-- `Emsg` (include/shiguredo/mp4/box/emsg.hpp:39-45). -/
structure Emsg extends FullBox where
  scheme_uri : List Byte
  value : List Byte
  timescale : BitVec 32
  presentation_time : BitVec 64
  event_duration : BitVec 32
  id : BitVec 32
  message_data : List Byte
  deriving DecidableEq

/-- src/box/emsg.cpp:55-75 -/
def Emsg.writeData (b : Emsg) : W Nat := do
  let mut wbits ← b.toFullBox.writeVersionAndFlag
  if b.version = 0 then
    wbits := wbits + (← write_string b.scheme_uri)
    wbits := wbits + (← write_string b.value)
    wbits := wbits + (← write_uint b.timescale)
    wbits := wbits + (← write_uint b.presentation_time 32)
    wbits := wbits + (← write_uint b.event_duration)
    wbits := wbits + (← write_uint b.id)
  else
    wbits := wbits + (← write_uint b.timescale)
    wbits := wbits + (← write_uint b.presentation_time)
    wbits := wbits + (← write_uint b.event_duration)
    wbits := wbits + (← write_uint b.id)
    wbits := wbits + (← write_string b.scheme_uri)
    wbits := wbits + (← write_string b.value)
  pure (wbits + (← write_vector_uint b.message_data))

/-- The tail of `Emsg::readData`: the message takes the rest of the box (src/box/emsg.cpp:99-101). -/
def Emsg.readTail (rbits : Nat) (b : Emsg) : R (Nat × Emsg) := do
  let offset_to_end ← R.offsetToEnd
  let (r, message_data) ← read_vector_uint 8 offset_to_end
  pure (rbits + r, { b with message_data })

/-- src/box/emsg.cpp:77-102 -/
def Emsg.readData : R (Nat × Emsg) := do
  let (r, fb) ← FullBox.readVersionAndFlag
  if fb.version = 0 then do
    let offset_to_end ← R.offsetToEnd
    let (r0, scheme_uri) ← read_string (offset_to_end * 8)
    let (r1, value) ← read_string (offset_to_end * 8 - r0)
    let (r2, timescale) ← read_uint 32
    let (r3, presentation_time) ← read_uint 64 32
    let (r4, event_duration) ← read_uint 32
    let (r5, id) ← read_uint 32
    Emsg.readTail (r + r0 + r1 + r2 + r3 + r4 + r5)
      { toFullBox := fb, scheme_uri, value, timescale, presentation_time, event_duration, id, message_data := [] }
  else do
    let (r2, timescale) ← read_uint 32
    let (r3, presentation_time) ← read_uint 64
    let (r4, event_duration) ← read_uint 32
    let (r5, id) ← read_uint 32
    let offset_to_end ← R.offsetToEnd
    let (r0, scheme_uri) ← read_string (offset_to_end * 8)
    let (r1, value) ← read_string (offset_to_end * 8 - r0)
    Emsg.readTail (r + r2 + r3 + r4 + r5 + r0 + r1)
      { toFullBox := fb, scheme_uri, value, timescale, presentation_time, event_duration, id, message_data := [] }

/-- src/box/emsg.cpp:104-107 -/
def Emsg.getDataSize (b : Emsg) : Nat :=
  4 + b.scheme_uri.length + 1 + b.value.length + 1 + (if b.version = 0 then 16 else 20) + b.message_data.length

/-- `Data` (include/shiguredo/mp4/box/data.hpp:69-71); `DataType` is a 32-bit enumeration. -/
structure Data where
  data_type : BitVec 32
  data_lang : BitVec 32
  data : List Byte
  deriving DecidableEq

/-- src/box/data.cpp:51-56 -/
def Data.writeData (b : Data) : W Nat := do
  let mut wbits ← write_uint b.data_type
  wbits := wbits + (← write_uint b.data_lang)
  pure (wbits + (← write_vector_uint b.data))

/-- src/box/data.cpp:58-66 -/
def Data.readData : R (Nat × Data) := do
  let (r0, data_type) ← read_uint 32
  let (r1, data_lang) ← read_uint 32
  let offset_to_end ← R.offsetToEnd
  let (r2, data) ← read_vector_uint 8 offset_to_end
  pure (r0 + r1 + r2, { data_type, data_lang, data })

/-- src/box/data.cpp:68-70 -/
def Data.getDataSize (b : Data) : Nat := 8 + b.data.length

/-- `Colr` (include/shiguredo/mp4/box/colr.hpp:45-52). -/
structure Colr where
  colour_type : Arr4
  colour_primaries : BitVec 16
  transfer_characteristics : BitVec 16
  matrix_coefficients : BitVec 16
  full_range_flag : Bool
  reserved : Byte
  profile : List Byte
  unknown : List Byte
  deriving DecidableEq

/-- `m_colour_type == {'n','c','l','x'}` -/
def Colr.isNclx (t : Arr4) : Bool := t == ⟨0x6e#8, 0x63#8, 0x6c#8, 0x78#8⟩

/-- `m_colour_type == {'r','I','C','C'} || m_colour_type == {'p','r','o','f'}` -/
def Colr.isProfile (t : Arr4) : Bool :=
  t == ⟨0x72#8, 0x49#8, 0x43#8, 0x43#8⟩ || t == ⟨0x70#8, 0x72#8, 0x6f#8, 0x66#8⟩

/-- src/box/colr.cpp:66-90 (with `nclxMarshal` inlined). -/
def Colr.writeData (b : Colr) : W Nat := do
  let mut wbits ← write_array_uint8_4 b.colour_type
  if Colr.isNclx b.colour_type then
    wbits := wbits + (← write_uint b.colour_primaries)
    wbits := wbits + (← write_uint b.transfer_characteristics)
    wbits := wbits + (← write_uint b.matrix_coefficients)
    wbits := wbits + (← write_bool b.full_range_flag)
    pure (wbits + (← write_uint b.reserved 7))
  else if Colr.isProfile b.colour_type then
    pure (wbits + (← write_vector_uint b.profile))
  else
    pure (wbits + (← write_vector_uint b.unknown))

/-- src/box/colr.cpp:92-120 (with `nclxUnwriteData` inlined). -/
def Colr.readData (old : Colr) : R (Nat × Colr) := do
  let (r, colour_type) ← read_array_uint8_4
  if Colr.isNclx colour_type then do
    let (r0, colour_primaries) ← read_uint 16
    let (r1, transfer_characteristics) ← read_uint 16
    let (r2, matrix_coefficients) ← read_uint 16
    let (r3, full_range_flag) ← read_bool
    let (r4, reserved) ← read_uint 8 7
    pure (r + r0 + r1 + r2 + r3 + r4,
      { old with colour_type, colour_primaries, transfer_characteristics, matrix_coefficients, full_range_flag,
                 reserved })
  else do
    let offset_to_end ← R.offsetToEnd
    if Colr.isProfile colour_type then do
      let (r0, profile) ← read_vector_uint 8 offset_to_end
      pure (r + r0, { old with colour_type, profile })
    else do
      let (r0, unknown) ← read_vector_uint 8 offset_to_end
      pure (r + r0, { old with colour_type, unknown })

/-- src/box/colr.cpp:122-131 -/
def Colr.getDataSize (b : Colr) : Nat :=
  if Colr.isNclx b.colour_type then 11
  else if Colr.isProfile b.colour_type then 4 + b.profile.length
  else 4 + b.unknown.length

/-- `Pssh` (include/shiguredo/mp4/box/pssh.hpp); a `PsshKID` is its 16 bytes. -/
structure Pssh extends FullBox where
  system_id : Vector Byte 16
  kids : List (Vector Byte 16)
  data : List Byte
  deriving DecidableEq

/-- src/box/pssh.cpp:69-84, `PsshKID::writeData` 25-31. -/
def Pssh.writeData (b : Pssh) : W Nat := do
  let mut wbits ← b.toFullBox.writeVersionAndFlag
  wbits := wbits + (← write_arr b.system_id)
  wbits := wbits + (← W.opt (decide (b.version ≠ 0)) (do
    let wbits ← write_uint (BitVec.ofNat 32 b.kids.length)
    pure (wbits + (← writeList write_arr b.kids))))
  wbits := wbits + (← write_uint (BitVec.ofNat 32 b.data.length))
  pure (wbits + (← write_vector_uint b.data))

/-- src/box/pssh.cpp:86-108, `PsshKID::readData` 33-41. -/
def Pssh.readData (old : Pssh) : R (Nat × Pssh) := do
  let (r0, fb) ← FullBox.readVersionAndFlag
  let (r1, system_id) ← read_arr 8 16
  let (r2, kids) ← R.opt (decide (fb.version ≠ 0)) (do
    let (s0, kid_count) ← read_uint 32
    let (s1, kids) ← readN (read_arr 8 16) kid_count.toNat
    pure (s0 + s1, kids)) old.kids
  let (r3, data_size) ← read_uint 32
  let (r4, data) ← read_vector_uint 8 data_size.toNat
  pure (r0 + r1 + r2 + r3 + r4, { toFullBox := fb, system_id, kids, data })

/-- src/box/pssh.cpp:110-116 -/
def Pssh.getDataSize (b : Pssh) : Nat :=
  if b.version = 0 then 24 + b.data.length else 28 + b.data.length + b.kids.length * 16

/-- `Ftyp` / `Styp`, which differ only in their type (include/shiguredo/mp4/box/ftyp.hpp:34-36, styp.hpp:34-36). -/
structure Ftyp where
  major_brand : Arr4
  minor_version : BitVec 32
  compatible_brands : List Arr4
  deriving DecidableEq

/-- src/box/ftyp.cpp:53-61, src/box/styp.cpp:53-61 -/
def Ftyp.writeData (b : Ftyp) : W Nat := do
  let mut wbits ← write_array_uint8_4 b.major_brand
  wbits := wbits + (← write_uint b.minor_version)
  pure (wbits + (← writeList write_array_uint8_4 b.compatible_brands))

/-- src/box/ftyp.cpp:63-79, src/box/styp.cpp:67-83 -/
def Ftyp.readData : R (Nat × Ftyp) := do
  let (r0, major_brand) ← read_array_uint8_4
  let (r1, minor_version) ← read_uint 32
  let offset_to_end ← R.offsetToEnd
  if offset_to_end % 4 ≠ 0 then .throw (.exc "Ftyp::readData(): box has invalid length")
  else do
    let (r2, compatible_brands) ← readN read_array_uint8_4 (offset_to_end / 4)
    pure (r0 + r1 + r2, { major_brand, minor_version, compatible_brands })

/-- src/box/ftyp.cpp:81-83, src/box/styp.cpp:63-65 -/
def Ftyp.getDataSize (b : Ftyp) : Nat := 8 + b.compatible_brands.length * 4

/-- `Meta` has only version and flags (include/shiguredo/mp4/box/meta.hpp). -/
structure Meta extends FullBox where
  deriving DecidableEq

/-- src/box/meta.cpp:26-29 -/
def Meta.writeData (b : Meta) : W Nat := b.toFullBox.writeVersionAndFlag

/-- src/box/meta.cpp:31-40: nonzero version or flags are replaced by zero. -/
def Meta.readData : R (Nat × Meta) := do
  let (r, fb) ← FullBox.readVersionAndFlag
  if fb.version ||| fb.f0 ||| fb.f1 ||| fb.f2 ≠ 0 then pure (r, ⟨⟨0, 0, 0, 0⟩⟩) else pure (r, ⟨fb⟩)

/-- `FullBox::getDataSize` (src/box.cpp:170-172) -/
def Meta.getDataSize (_ : Meta) : Nat := 4

/-- `Free`, `Skip`, `Mdat`, `Unsupported` hold opaque bytes (include/shiguredo/mp4/box/free.hpp:31, skip.hpp:31,
mdat.hpp:31, unsupported.hpp:31). -/
structure Opaque where
  data : List Byte
  deriving DecidableEq

/-- src/box/free.cpp:36-39, skip.cpp:36-39, mdat.cpp:36-39, unsupported.cpp:36-39 -/
def Opaque.writeData (b : Opaque) : W Nat := write_vector_uint b.data

/-- src/box/free.cpp:41-45, skip.cpp:41-45, mdat.cpp:45-49, unsupported.cpp:41-45 -/
def Opaque.readData : R (Nat × Opaque) := do
  let offset_to_end ← R.offsetToEnd
  let (r, data) ← read_vector_uint 8 offset_to_end
  pure (r, { data })

/-- src/box/free.cpp:47-49, skip.cpp:47-49, mdat.cpp:41-43, unsupported.cpp:47-49 -/
def Opaque.getDataSize (b : Opaque) : Nat := b.data.length

end Mp4
