import Verif.Conformance.Harness

/-! # Test vectors of `test/box_types.cpp`, part 1 (generated) -/

namespace Mp4
namespace Conformance

/-- "co64" (test/box_types.cpp:23-34). -/
example : passes ⟨0x63, 0x6f, 0x36, 0x34⟩
    [0x00, 0x00, 0x00, 0x00, 0x00, 0x00, 0x00, 0x02, 0x01, 0x23, 0x45, 0x67, 0x89, 0xab, 0xcd, 0xef, 0x89, 0xab, 0xcd, 0xef, 0x01, 0x23, 0x45, 0x67]
    b!"Version=0 Flags=0x000000 EntryCount=2 ChunkOffsets=[0x123456789abcdef, 0x89abcdef01234567]" := by decide +kernel

/-- "colr: nclx" (test/box_types.cpp:35-49). -/
example : passes ⟨0x63, 0x6f, 0x6c, 0x72⟩
    [0x6e, 0x63, 0x6c, 0x78, 0x01, 0x23, 0x23, 0x45, 0x45, 0x67, 0x80]
    b!"ColourType=\"nclx\" ColourPrimaries=291 TransferCharacteristics=9029 MatrixCoefficients=17767 FullRangeFlag=true" := by decide +kernel

/-- "colr: rICC" (test/box_types.cpp:50-66). -/
example : passes ⟨0x63, 0x6f, 0x6c, 0x72⟩
    [0x72, 0x49, 0x43, 0x43, 0x12, 0x34, 0x56, 0x78, 0xab]
    b!"ColourType=\"rICC\" Profile=[0x12, 0x34, 0x56, 0x78, 0xab]" := by decide +kernel

/-- "colr: nclc" (test/box_types.cpp:67-81). -/
example : passes ⟨0x63, 0x6f, 0x6c, 0x72⟩
    [0x6e, 0x63, 0x6c, 0x63, 0x01, 0x23, 0x45]
    b!"ColourType=\"nclc\" Unknown=[0x1, 0x23, 0x45]" := by decide +kernel

/-- "ctts: version 0" (test/box_types.cpp:82-103). -/
example : passes ⟨0x63, 0x74, 0x74, 0x73⟩
    [0x00, 0x00, 0x00, 0x00, 0x00, 0x00, 0x00, 0x02, 0x01, 0x23, 0x45, 0x67, 0x12, 0x34, 0x56, 0x78, 0x89, 0xab, 0xcd, 0xef, 0x78, 0x9a, 0xbc, 0xde]
    b!"Version=0 Flags=0x000000 EntryCount=2 Entries=[{SampleCount=19088743 SampleOffset=305419896}, {SampleCount=2309737967 SampleOffset=2023406814}]" := by decide +kernel

/-- "ctts: version 1" (test/box_types.cpp:104-126). -/
example : passes ⟨0x63, 0x74, 0x74, 0x73⟩
    [0x01, 0x00, 0x00, 0x00, 0x00, 0x00, 0x00, 0x02, 0x01, 0x23, 0x45, 0x67, 0x12, 0x34, 0x56, 0x78, 0x89, 0xab, 0xcd, 0xef, 0x87, 0x65, 0x43, 0x22]
    b!"Version=1 Flags=0x000000 EntryCount=2 Entries=[{SampleCount=19088743 SampleOffset=305419896}, {SampleCount=2309737967 SampleOffset=-2023406814}]" := by decide +kernel

/-- "dinf" (test/box_types.cpp:127-133). -/
example : passes ⟨0x64, 0x69, 0x6e, 0x66⟩
    []
    b!"" := by decide +kernel

/-- "dref" (test/box_types.cpp:134-144). -/
example : passes ⟨0x64, 0x72, 0x65, 0x66⟩
    [0x00, 0x00, 0x00, 0x00, 0x12, 0x34, 0x56, 0x78]
    b!"Version=0 Flags=0x000000 EntryCount=305419896" := by decide +kernel

/-- "url no location" (test/box_types.cpp:145-154). -/
example : passes ⟨0x75, 0x72, 0x6c, 0x20⟩
    [0x00, 0x00, 0x00, 0x01]
    b!"Version=0 Flags=0x000001" := by decide +kernel

/-- "url location" (test/box_types.cpp:155-165). -/
example : passes ⟨0x75, 0x72, 0x6c, 0x20⟩
    [0x00, 0x00, 0x00, 0x00, 0x74, 0x73, 0x74, 0x00]
    b!"Version=0 Flags=0x000000 Location=\"tst\"" := by decide +kernel

/-- "urn no name/location" (test/box_types.cpp:166-175). -/
example : passes ⟨0x75, 0x72, 0x6e, 0x20⟩
    [0x00, 0x00, 0x00, 0x01]
    b!"Version=0 Flags=0x000001" := by decide +kernel

/-- "urn name/location" (test/box_types.cpp:176-187). -/
example : passes ⟨0x75, 0x72, 0x6e, 0x20⟩
    [0x00, 0x00, 0x00, 0x00, 0x31, 0x31, 0x31, 0x00, 0x74, 0x73, 0x74, 0x00]
    b!"Version=0 Flags=0x000000 Name=\"111\" Location=\"tst\"" := by decide +kernel

/-- "edts" (test/box_types.cpp:188-194). -/
example : passes ⟨0x65, 0x64, 0x74, 0x73⟩
    []
    b!"" := by decide +kernel

/-- "elst: version 0" (test/box_types.cpp:195-219). -/
example : passes ⟨0x65, 0x6c, 0x73, 0x74⟩
    [0x00, 0x00, 0x00, 0x00, 0x00, 0x00, 0x00, 0x02, 0x01, 0x00, 0x00, 0x0a, 0x01, 0x00, 0x00, 0x0b, 0x00, 0x01, 0x00, 0x00, 0x02, 0x00, 0x00, 0x0a, 0x02, 0x00, 0x00, 0x0b, 0x00, 0x02, 0x00, 0x00]
    b!"Version=0 Flags=0x000000 EntryCount=2 Entries=[{TrackDuration=16777226 MediaTime=16777227 MediaRate=1.0000}, {TrackDuration=33554442 MediaTime=33554443 MediaRate=2.0000}]" := by decide +kernel

/-- "elst: version 1" (test/box_types.cpp:220-251). -/
example : passes ⟨0x65, 0x6c, 0x73, 0x74⟩
    [0x01, 0x00, 0x00, 0x00, 0x00, 0x00, 0x00, 0x02, 0x01, 0x00, 0x00, 0x00, 0x00, 0x00, 0x00, 0x0a, 0x01, 0x00, 0x00, 0x00, 0x00, 0x00, 0x00, 0x0b, 0x00, 0x01, 0x00, 0x00, 0x02, 0x00, 0x00, 0x00, 0x00, 0x00, 0x00, 0x0a, 0x02, 0x00, 0x00, 0x00, 0x00, 0x00, 0x00, 0x0b, 0x00, 0x03, 0x00, 0x00]
    b!"Version=1 Flags=0x000000 EntryCount=2 Entries=[{TrackDuration=72057594037927946 MediaTime=72057594037927947 MediaRate=1.0000}, {TrackDuration=144115188075855882 MediaTime=144115188075855883 MediaRate=3.0000}]" := by decide +kernel

/-- "emsg: version 0" (test/box_types.cpp:252-274). -/
example : passes ⟨0x65, 0x6d, 0x73, 0x67⟩
    [0x00, 0x00, 0x00, 0x00, 0x75, 0x72, 0x6e, 0x3a, 0x74, 0x65, 0x73, 0x74, 0x00, 0x66, 0x6f, 0x6f, 0x00, 0x00, 0x00, 0x03, 0xe8, 0x00, 0x00, 0x00, 0x7b, 0x00, 0x00, 0x0b, 0xb8, 0x00, 0x00, 0xab, 0xcd, 0x73, 0x68, 0x69, 0x67, 0x75, 0x72, 0x65, 0x64, 0x6f]
    b!"Version=0 Flags=0x000000 SchemeIdUri=\"urn:test\" Value=\"foo\" Timescale=1000 PresentationTimeDelta=123 EventDuration=3000 Id=43981 MessageData=\"shiguredo\"" := by decide +kernel

/-- "emsg: version 1" (test/box_types.cpp:275-299). -/
example : passes ⟨0x65, 0x6d, 0x73, 0x67⟩
    [0x01, 0x00, 0x00, 0x00, 0x00, 0x00, 0x03, 0xe8, 0x00, 0x00, 0x00, 0x00, 0x00, 0x00, 0x00, 0x7b, 0x00, 0x00, 0x0b, 0xb8, 0x00, 0x00, 0xab, 0xcd, 0x75, 0x72, 0x6e, 0x3a, 0x74, 0x65, 0x73, 0x74, 0x00, 0x66, 0x6f, 0x6f, 0x00, 0x73, 0x68, 0x69, 0x67, 0x75, 0x72, 0x65, 0x64, 0x6f]
    b!"Version=1 Flags=0x000000 SchemeIdUri=\"urn:test\" Value=\"foo\" Timescale=1000 PresentationTime=123 EventDuration=3000 Id=43981 MessageData=\"shiguredo\"" := by decide +kernel

/-- "esds" (test/box_types.cpp:300-380). -/
example : passes ⟨0x65, 0x73, 0x64, 0x73⟩
    [0x00, 0x00, 0x00, 0x00, 0x03, 0x80, 0x80, 0x80, 0x2a, 0x12, 0x34, 0x43, 0x0b, 0x68, 0x74, 0x74, 0x70, 0x3a, 0x2f, 0x2f, 0x68, 0x6f, 0x67, 0x65, 0x04, 0x80, 0x80, 0x80, 0x15, 0x12, 0x56, 0x12, 0x34, 0x56, 0x12, 0x34, 0x56, 0x78, 0x23, 0x45, 0x67, 0x89, 0x05, 0x80, 0x80, 0x80, 0x03, 0x11, 0x22, 0x33, 0x06, 0x80, 0x80, 0x80, 0x05, 0x11, 0x22, 0x33, 0x44, 0x55]
    b!"Version=0 Flags=0x000000 Descriptors=[{Tag=ESDescr DataSize=15 DataSizeWithSubDescriptors=42 ESID=4660 StreamDependenceFlag=false UrlFlag=true OcrStreamFlag=false StreamPriority=3 URLLength=0xb URLString=\"http://hoge\"}, {Tag=DecoderConfigDescr DataSize=13 DataSizeWithSubDescriptors=21 ObjectTypeIndication=0x12 StreamType=21 UpStream=true Reserved=false BufferSizeDB=1193046 MaxBitrate=305419896 AvgBitrate=591751049}, {Tag=DecSpecificInfo DataSize=3 Data=[0x11, 0x22, 0x33]}, {Tag=SLConfigDescr DataSize=5 Data=[0x11, 0x22, 0x33, 0x44, 0x55]}]" := by decide +kernel

/-- "free" (test/box_types.cpp:381-391). -/
example : passes ⟨0x66, 0x72, 0x65, 0x65⟩
    [0x12, 0x34, 0x56]
    b!"Data=[0x12, 0x34, 0x56]" := by decide +kernel

/-- "skip" (test/box_types.cpp:392-402). -/
example : passes ⟨0x73, 0x6b, 0x69, 0x70⟩
    [0x12, 0x34, 0x56]
    b!"Data=[0x12, 0x34, 0x56]" := by decide +kernel

/-- "ftyp" (test/box_types.cpp:403-423). -/
example : passes ⟨0x66, 0x74, 0x79, 0x70⟩
    [0x61, 0x62, 0x65, 0x6d, 0x12, 0x34, 0x56, 0x78, 0x61, 0x62, 0x63, 0x64, 0x65, 0x66, 0x67, 0x68]
    b!"MajorBrand=\"abem\" MinorVersion=305419896 CompatibleBrands=[{CompatibleBrand=\"abcd\"}, {CompatibleBrand=\"efgh\"}]" := by decide +kernel

/-- "hdlr" (test/box_types.cpp:424-440). -/
example : passes ⟨0x68, 0x64, 0x6c, 0x72⟩
    [0x00, 0x00, 0x00, 0x00, 0x12, 0x34, 0x56, 0x78, 0x61, 0x62, 0x65, 0x6d, 0x00, 0x00, 0x00, 0x00, 0x00, 0x00, 0x00, 0x00, 0x00, 0x00, 0x00, 0x00, 0x41, 0x62, 0x65, 0x6d, 0x61, 0x00]
    b!"Version=0 Flags=0x000000 PreDefined=305419896 HandlerType=\"abem\" Name=\"Abema\"" := by decide +kernel

/-- "ilst" (test/box_types.cpp:441-441). -/
example : passes ⟨0x69, 0x6c, 0x73, 0x74⟩
    []
    b!"" := by decide +kernel

/-- "mdat" (test/box_types.cpp:442-452). -/
example : passes ⟨0x6d, 0x64, 0x61, 0x74⟩
    [0x11, 0x22, 0x33]
    b!"Data=[0x11, 0x22, 0x33]" := by decide +kernel

/-- "mdhd: version 0" (test/box_types.cpp:453-471). -/
example : passes ⟨0x6d, 0x64, 0x68, 0x64⟩
    [0x00, 0x00, 0x00, 0x00, 0x12, 0x34, 0x56, 0x78, 0x23, 0x45, 0x67, 0x89, 0x01, 0x02, 0x03, 0x04, 0x02, 0x03, 0x04, 0x05, 0xaa, 0x0e, 0x00, 0x00]
    b!"Version=0 Flags=0x000000 CreationTime=\"1913-09-04T22:51:36Z\" ModificationTime=\"1922-10-01T23:17:29Z\" Timescale=16909060 Duration=33752069 Pad=true Language=\"jpn\" PreDefined=0" := by decide +kernel

/-- "mdhd: version 1" (test/box_types.cpp:472-494). -/
example : passes ⟨0x6d, 0x64, 0x68, 0x64⟩
    [0x01, 0x00, 0x00, 0x00, 0x00, 0x00, 0x00, 0x00, 0xdb, 0xd2, 0x53, 0x4b, 0x00, 0x00, 0x00, 0x00, 0xdb, 0xd2, 0x53, 0x4b, 0x01, 0x02, 0x03, 0x04, 0x02, 0x03, 0x04, 0x05, 0x06, 0x07, 0x08, 0x09, 0xaa, 0x0e, 0x00, 0x00]
    b!"Version=1 Flags=0x000000 CreationTime=\"2020-11-12T02:49:47Z\" ModificationTime=\"2020-11-12T02:49:47Z\" Timescale=16909060 Duration=144964032628459529 Pad=true Language=\"jpn\" PreDefined=0" := by decide +kernel

/-- "mehd: version 0" (test/box_types.cpp:495-505). -/
example : passes ⟨0x6d, 0x65, 0x68, 0x64⟩
    [0x00, 0x00, 0x00, 0x00, 0x01, 0x23, 0x45, 0x67]
    b!"Version=0 Flags=0x000000 FragmentDuration=19088743" := by decide +kernel

/-- "mehd: version 1" (test/box_types.cpp:506-518). -/
example : passes ⟨0x6d, 0x65, 0x68, 0x64⟩
    [0x01, 0x00, 0x00, 0x00, 0x01, 0x23, 0x45, 0x67, 0x89, 0xab, 0xcd, 0xef]
    b!"Version=1 Flags=0x000000 FragmentDuration=81985529216486895" := by decide +kernel

/-- "meta" (test/box_types.cpp:519-528). -/
example : passes ⟨0x6d, 0x65, 0x74, 0x61⟩
    [0x00, 0x00, 0x00, 0x00]
    b!"Version=0 Flags=0x000000" := by decide +kernel

/-- "mfhd" (test/box_types.cpp:529-539). -/
example : passes ⟨0x6d, 0x66, 0x68, 0x64⟩
    [0x00, 0x00, 0x00, 0x00, 0x12, 0x34, 0x56, 0x78]
    b!"Version=0 Flags=0x000000 SequenceNumber=305419896" := by decide +kernel

/-- "mfra" (test/box_types.cpp:540-540). -/
example : passes ⟨0x6d, 0x66, 0x72, 0x61⟩
    []
    b!"" := by decide +kernel

/-- "mfro" (test/box_types.cpp:541-549). -/
example : passes ⟨0x6d, 0x66, 0x72, 0x6f⟩
    [0x00, 0x00, 0x00, 0x00, 0x12, 0x34, 0x56, 0x78]
    b!"Version=0 Flags=0x000000 Size=305419896" := by decide +kernel

/-- "minf" (test/box_types.cpp:550-550). -/
example : passes ⟨0x6d, 0x69, 0x6e, 0x66⟩
    []
    b!"" := by decide +kernel

/-- "moof" (test/box_types.cpp:551-551). -/
example : passes ⟨0x6d, 0x6f, 0x6f, 0x66⟩
    []
    b!"" := by decide +kernel

/-- "moov" (test/box_types.cpp:552-552). -/
example : passes ⟨0x6d, 0x6f, 0x6f, 0x76⟩
    []
    b!"" := by decide +kernel

/-- "mvex" (test/box_types.cpp:553-553). -/
example : passes ⟨0x6d, 0x76, 0x65, 0x78⟩
    []
    b!"" := by decide +kernel

/-- "mvhd: version 0" (test/box_types.cpp:554-591). -/
example : passes ⟨0x6d, 0x76, 0x68, 0x64⟩
    [0x00, 0x00, 0x00, 0x00, 0x01, 0x23, 0x45, 0x67, 0x23, 0x45, 0x67, 0x89, 0x45, 0x67, 0x89, 0xab, 0x67, 0x89, 0xab, 0xcd, 0xfe, 0xdc, 0xba, 0x99, 0x01, 0x23, 0x00, 0x00, 0x00, 0x00, 0x00, 0x00, 0x00, 0x00, 0x00, 0x00, 0x00, 0x00, 0x00, 0x00, 0x00, 0x00, 0x00, 0x00, 0x00, 0x00, 0x00, 0x00, 0x00, 0x00, 0x00, 0x00, 0x00, 0x00, 0x00, 0x00, 0x00, 0x00, 0x00, 0x00, 0x00, 0x00, 0x00, 0x00, 0x00, 0x00, 0x00, 0x00, 0x00, 0x00, 0x00, 0x00, 0x00, 0x00, 0x00, 0x00, 0x00, 0x00, 0x00, 0x00, 0x00, 0x00, 0x00, 0x00, 0x00, 0x00, 0x00, 0x00, 0x00, 0x00, 0x00, 0x00, 0x00, 0x00, 0x00, 0x00, 0xab, 0xcd, 0xef, 0x01]
    b!"Version=0 Flags=0x000000 CreationTime=\"1904-08-08T22:25:43Z\" ModificationTime=\"1922-10-01T23:17:29Z\" Timescale=1164413355 Duration=1737075661 Rate=-291.2711 Volume=291 Matrix=[0x0, 0x0, 0x0, 0x0, 0x0, 0x0, 0x0, 0x0, 0x0] PreDefined=[0, 0, 0, 0, 0, 0] NextTrackID=2882400001" := by decide +kernel

end Conformance
end Mp4
