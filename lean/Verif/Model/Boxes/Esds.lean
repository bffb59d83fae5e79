import Verif.BitIO.BoxTools

/-! # `esds` descriptors (`src/box/esds.cpp`) -/

namespace Mp4

/-- The fields of `ESDescriptor` (include/shiguredo/mp4/box/esds.hpp:68-77) other than its sub-descriptors. -/
structure ESFields where
  sub_descriptors_size : BitVec 32
  ESID : BitVec 16
  stream_dependence_flag : Bool
  url_flag : Bool
  ocr_stream_flag : Bool
  stream_priority : BitVec 8
  depends_on_esid : BitVec 16
  url_string : List Byte
  OCRESID : BitVec 16
  deriving DecidableEq

/-- The fields of `DecoderConfigDescriptor` (esds.hpp:105-114) other than its sub-descriptors. -/
structure DecConfigFields where
  sub_descriptors_size : BitVec 32
  object_type_indication : BitVec 8
  stream_type : BitVec 8
  upstream : Bool
  reserved : Bool
  buffer_size_db : BitVec 32
  max_bitrate : BitVec 32
  avg_bitrate : BitVec 32
  deriving DecidableEq

/-- `Descriptor` and its four subclasses (esds.hpp:21-157); `m_sub_descriptors` are only used for sizes. -/
inductive Descriptor where
  | es (f : ESFields) (subs : List Descriptor)
  | decConfig (f : DecConfigFields) (subs : List Descriptor)
  | decSpecific (data : List Byte)
  | slConfig (data : List Byte)

/-- `ESDescriptor::getDataSize` (src/box/esds.cpp:83-95), a `uint32_t`. -/
def ESFields.getDataSize (f : ESFields) : BitVec 32 :=
  let size : BitVec 32 := 3
  let size := if f.stream_dependence_flag then size + 2 else size
  let size := if f.url_flag then size + (1 + BitVec.ofNat 32 f.url_string.length) else size
  if f.ocr_stream_flag then size + 2 else size

/-- `getSize` of the four descriptors (src/box/esds.cpp:68-70, 171-173, 224-226, 260-262). -/
def Descriptor.getSize : Descriptor → Nat
  | .es f _ => 1 + uvarint_size 32 + f.getDataSize.toNat
  | .decConfig _ _ => 1 + 13 + uvarint_size 32
  | .decSpecific data => 1 + uvarint_size 32 + data.length
  | .slConfig data => 1 + uvarint_size 32 + data.length

mutual
/-- `getDataSizeWithSubDescriptors` (src/box/esds.cpp:72-81, 175-182, 232-234, 268-270). -/
def Descriptor.sizeWithSubs : Descriptor → BitVec 32
  | .es f subs =>
    if f.sub_descriptors_size > 0 then f.getDataSize + f.sub_descriptors_size
    else f.getDataSize + Descriptor.esSubs subs
  | .decConfig f subs =>
    if f.sub_descriptors_size > 0 then 13 + f.sub_descriptors_size
    else 13 + (subs.foldl (fun (a : BitVec 32) d => a + BitVec.ofNat 32 d.getSize) 0)
  | .decSpecific data => BitVec.ofNat 32 data.length
  | .slConfig data => BitVec.ofNat 32 data.length
/-- The `accumulate` of `ESDescriptor::getDataSizeWithSubDescriptors` (sums commute, so right to left). -/
def Descriptor.esSubs : List Descriptor → BitVec 32
  | [] => 0
  | d :: ds => 5 + Descriptor.sizeWithSubs d + Descriptor.esSubs ds
end

/-- `writeData` of the four descriptors (src/box/esds.cpp:42-66, 158-169, 218-222, 254-258). -/
def Descriptor.writeData (d : Descriptor) : W Nat :=
  match d with
  | .es f _ => do
    let mut wbits ← write_int 0x03#8
    wbits := wbits + (← write_uvarint d.sizeWithSubs)
    wbits := wbits + (← write_uint f.ESID)
    wbits := wbits + (← write_bool f.stream_dependence_flag)
    wbits := wbits + (← write_bool f.url_flag)
    wbits := wbits + (← write_bool f.ocr_stream_flag)
    wbits := wbits + (← write_int f.stream_priority 5)
    wbits := wbits + (← W.opt f.stream_dependence_flag (write_uint f.depends_on_esid))
    wbits := wbits + (← W.opt f.url_flag (
      if f.url_string.length > 255 then W.throw (.exc "ESDescriptor::writeData(): url_string is too long")
      else do
        let wbits ← write_uint (BitVec.ofNat 8 f.url_string.length)
        pure (wbits + (← write_vector_uint f.url_string))))
    wbits := wbits + (← W.opt f.ocr_stream_flag (write_uint f.OCRESID))
    pure wbits
  | .decConfig f _ => do
    let mut wbits ← write_int 0x04#8
    wbits := wbits + (← write_uvarint d.sizeWithSubs)
    wbits := wbits + (← write_uint f.object_type_indication)
    wbits := wbits + (← write_int f.stream_type 6)
    wbits := wbits + (← write_bool f.upstream)
    wbits := wbits + (← write_bool f.reserved)
    wbits := wbits + (← write_uint f.buffer_size_db 24)
    wbits := wbits + (← write_uint f.max_bitrate)
    wbits := wbits + (← write_uint f.avg_bitrate)
    pure wbits
  | .decSpecific data => do
    let mut wbits ← write_int 0x05#8
    wbits := wbits + (← write_uvarint (BitVec.ofNat 32 data.length))
    pure (wbits + (← write_vector_uint data))
  | .slConfig data => do
    let mut wbits ← write_int 0x06#8
    wbits := wbits + (← write_uvarint (BitVec.ofNat 32 data.length))
    pure (wbits + (← write_vector_uint data))

/-- What the uninitialised members of a fresh `ESDescriptor` happen to hold (esds.hpp:73-76 have no initialiser). -/
structure ESJunk where
  depends_on_esid : BitVec 16
  OCRESID : BitVec 16

/-- `ESDescriptor::readData` on a fresh object (src/box/esds.cpp:97-119), after the tag. -/
def ESFields.readData (g : ESJunk) : R (Nat × Descriptor) := do
  let (r0, size) ← read_uvarint 32
  let (r1, ESID) ← read_uint 16
  let (r2, stream_dependence_flag) ← read_bool
  let (r3, url_flag) ← read_bool
  let (r4, ocr_stream_flag) ← read_bool
  let (r5, stream_priority) ← read_int 8 5
  let (r6, depends_on_esid) ← R.opt stream_dependence_flag (read_uint 16) g.depends_on_esid
  let (r7, url_string) ← R.opt url_flag (do
    let (s0, n) ← read_uint 8
    let (s1, url) ← read_vector_uint 8 n.toNat
    pure (s0 + s1, url)) []
  let (r8, OCRESID) ← R.opt ocr_stream_flag (read_uint 16) g.OCRESID
  let f : ESFields := { sub_descriptors_size := 0, ESID, stream_dependence_flag, url_flag, ocr_stream_flag,
                        stream_priority, depends_on_esid, url_string, OCRESID }
  pure (r0 + r1 + r2 + r3 + r4 + r5 + r6 + r7 + r8,
    .es { f with sub_descriptors_size := size - f.getDataSize } [])

/-- `DecoderConfigDescriptor::readData` on a fresh object (src/box/esds.cpp:188-200), after the tag. -/
def DecConfigFields.readData : R (Nat × Descriptor) := do
  let (r0, size) ← read_uvarint 32
  let (r1, object_type_indication) ← read_uint 8
  let (r2, stream_type) ← read_int 8 6
  let (r3, upstream) ← read_bool
  let (r4, reserved) ← read_bool
  let (r5, buffer_size_db) ← read_uint 32 24
  let (r6, max_bitrate) ← read_uint 32
  let (r7, avg_bitrate) ← read_uint 32
  pure (r0 + r1 + r2 + r3 + r4 + r5 + r6 + r7,
    .decConfig { sub_descriptors_size := size - 13, object_type_indication, stream_type, upstream, reserved,
                 buffer_size_db, max_bitrate, avg_bitrate } [])

/-- `DecSpecificInfo::readData` and `SLConfigDescr::readData` (src/box/esds.cpp:236-240, 272-276), after the tag. -/
def readInfo (mk : List Byte → Descriptor) : R (Nat × Descriptor) := do
  let (r0, size) ← read_uvarint 32
  let (r1, data) ← read_vector_uint 8 size.toNat
  pure (r0 + r1, mk data)

/-- `Esds` (include/shiguredo/mp4/box/esds.hpp:166-181). -/
structure Esds extends FullBox where
  descriptors : List Descriptor

/-- src/box/esds.cpp:302-308 -/
def Esds.writeData (b : Esds) : W Nat := do
  let wbits ← b.toFullBox.writeVersionAndFlag
  pure (wbits + (← writeList Descriptor.writeData b.descriptors))

/-- src/box/esds.cpp:310-313 -/
def Esds.getDataSize (b : Esds) : Nat := 4 + (b.descriptors.map Descriptor.getSize).sum

/-- The loop of `Esds::readData` (src/box/esds.cpp:319-346).  Every iteration reads at least the tag, so the fuel,
larger than the number of bytes, is never exhausted. -/
def Esds.readGo (g : ESJunk) (fb : FullBox) : Nat → Nat → List Descriptor → R (Nat × Esds)
  | 0, rbits, acc => pure (rbits, ⟨fb, acc⟩)
  | fuel + 1, rbits, acc => do
    let offset_to_end ← R.offsetToEnd
    if offset_to_end = 0 then pure (rbits, ⟨fb, acc⟩)
    else do
      let (r, tag) ← read_int 8
      if tag = 0x03#8 then do
        let (s, p) ← ESFields.readData g
        Esds.readGo g fb fuel (rbits + r + s) (acc ++ [p])
      else if tag = 0x04#8 then do
        let (s, p) ← DecConfigFields.readData
        Esds.readGo g fb fuel (rbits + r + s) (acc ++ [p])
      else if tag = 0x05#8 then do
        let (s, p) ← readInfo .decSpecific
        Esds.readGo g fb fuel (rbits + r + s) (acc ++ [p])
      else if tag = 0x06#8 then do
        let (s, p) ← readInfo .slConfig
        Esds.readGo g fb fuel (rbits + r + s) (acc ++ [p])
      else pure (rbits + r + offset_to_end * 8, ⟨fb, acc⟩)

/-- src/box/esds.cpp:315-348 -/
def Esds.readData (g : ESJunk) : R (Nat × Esds) := do
  let (r, fb) ← FullBox.readVersionAndFlag
  let n ← R.offsetToEnd
  Esds.readGo g fb (n + 1) r []

end Mp4
