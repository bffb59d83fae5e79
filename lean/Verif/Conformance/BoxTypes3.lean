import Verif.Conformance.Harness

/-! # Test vectors of `test/box_types.cpp`, part 3 (generated) -/

namespace Mp4
namespace Conformance

/-- "sgpd: version 1 alst default-length" (test/box_types.cpp:1119-1169). -/
example : passes ⟨0x73, 0x67, 0x70, 0x64⟩
    [0x01, 0x00, 0x00, 0x00, 0x61, 0x6c, 0x73, 0x74, 0x00, 0x00, 0x00, 0x14, 0x00, 0x00, 0x00, 0x02, 0x00, 0x02, 0x01, 0x23, 0x01, 0x23, 0x45, 0x67, 0x89, 0xab, 0xcd, 0xef, 0x01, 0x23, 0x45, 0x67, 0x89, 0xab, 0xcd, 0xef, 0x00, 0x02, 0x45, 0x67, 0x45, 0x67, 0x89, 0xab, 0xcd, 0xef, 0x01, 0x23, 0x01, 0x23, 0x45, 0x67, 0x89, 0xab, 0xcd, 0xef]
    b!"Version=1 Flags=0x000000 GroupingType=\"alst\" DefaultLength=20 EntryCount=2 AlternativeStartupEntries=[{RollCount=2 FirstOutputSample=291 SampleOffset=[19088743, 2309737967] Opts=[{NumOutputSamples=291 NumTotalSamples=17767}, {NumOutputSamples=35243 NumTotalSamples=52719}]}, {RollCount=2 FirstOutputSample=17767 SampleOffset=[1164413355, 3454992675] Opts=[{NumOutputSamples=291 NumTotalSamples=17767}, {NumOutputSamples=35243 NumTotalSamples=52719}]}]" := by decide +kernel

/-- "sgpd: version 1 alst no-default-length" (test/box_types.cpp:1170-1227). -/
example : passes ⟨0x73, 0x67, 0x70, 0x64⟩
    [0x01, 0x00, 0x00, 0x00, 0x61, 0x6c, 0x73, 0x74, 0x00, 0x00, 0x00, 0x00, 0x00, 0x00, 0x00, 0x02, 0x00, 0x00, 0x00, 0x10, 0x00, 0x02, 0x01, 0x23, 0x01, 0x23, 0x45, 0x67, 0x89, 0xab, 0xcd, 0xef, 0x01, 0x23, 0x45, 0x67, 0x00, 0x00, 0x00, 0x14, 0x00, 0x02, 0x45, 0x67, 0x45, 0x67, 0x89, 0xab, 0xcd, 0xef, 0x01, 0x23, 0x01, 0x23, 0x45, 0x67, 0x89, 0xab, 0xcd, 0xef]
    b!"Version=1 Flags=0x000000 GroupingType=\"alst\" DefaultLength=0 EntryCount=2 AlternativeStartupEntriesL=[{DescriptionLength=16 RollCount=2 FirstOutputSample=291 SampleOffset=[19088743, 2309737967] Opts=[{NumOutputSamples=291 NumTotalSamples=17767}]}, {DescriptionLength=20 RollCount=2 FirstOutputSample=17767 SampleOffset=[1164413355, 3454992675] Opts=[{NumOutputSamples=291 NumTotalSamples=17767}, {NumOutputSamples=35243 NumTotalSamples=52719}]}]" := by decide +kernel

/-- "sgpd: version 1 rap" (test/box_types.cpp:1228-1250). -/
example : passes ⟨0x73, 0x67, 0x70, 0x64⟩
    [0x01, 0x00, 0x00, 0x00, 0x72, 0x61, 0x70, 0x20, 0x00, 0x00, 0x00, 0x01, 0x00, 0x00, 0x00, 0x02, 0xa7, 0x1a]
    b!"Version=1 Flags=0x000000 GroupingType=\"rap \" DefaultLength=1 EntryCount=2 VisualRandomAccessEntries=[{NumLeadingSamplesKnown=true NumLeadingSamples=0x27}, {NumLeadingSamplesKnown=false NumLeadingSamples=0x1a}]" := by decide +kernel

/-- "sgpd: version 1 tele" (test/box_types.cpp:1251-1271). -/
example : passes ⟨0x73, 0x67, 0x70, 0x64⟩
    [0x01, 0x00, 0x00, 0x00, 0x74, 0x65, 0x6c, 0x65, 0x00, 0x00, 0x00, 0x01, 0x00, 0x00, 0x00, 0x02, 0x80, 0x00]
    b!"Version=1 Flags=0x000000 GroupingType=\"tele\" DefaultLength=1 EntryCount=2 TemporalLevelEntries=[{LevelIndependentlyRecodable=true}, {LevelIndependentlyRecodable=false}]" := by decide +kernel

/-- "sgpd: version 2 roll" (test/box_types.cpp:1272-1296). -/
example : passes ⟨0x73, 0x67, 0x70, 0x64⟩
    [0x02, 0x00, 0x00, 0x00, 0x72, 0x6f, 0x6c, 0x6c, 0x00, 0x00, 0x00, 0x05, 0x00, 0x00, 0x00, 0x02, 0x11, 0x11, 0x22, 0x22]
    b!"Version=2 Flags=0x000000 GroupingType=\"roll\" DefaultSampleDescriptionIndex=5 EntryCount=2 RollDistances=[4369, 8738]" := by decide +kernel

/-- "sidx: version=0" (test/box_types.cpp:1297-1352). -/
example : passes ⟨0x73, 0x69, 0x64, 0x78⟩
    [0x00, 0x00, 0x00, 0x00, 0x01, 0x23, 0x45, 0x67, 0x23, 0x45, 0x67, 0x89, 0x45, 0x67, 0x89, 0xab, 0x67, 0x89, 0xab, 0xcd, 0x00, 0x00, 0x00, 0x02, 0x01, 0x23, 0x45, 0x67, 0x23, 0x45, 0x67, 0x89, 0xe9, 0xab, 0xcd, 0xef, 0x81, 0x23, 0x45, 0x67, 0x23, 0x45, 0x67, 0x89, 0x59, 0xab, 0xcd, 0xef]
    b!"Version=0 Flags=0x000000 ReferenceID=19088743 Timescale=591751049 EarliestPresentationTime=1164413355 FirstOffset=1737075661 ReferenceCount=2 References=[{ReferenceType=false ReferencedSize=19088743 SubsegmentDuration=591751049 StartsWithSAP=true SAPType=6 SAPDeltaTime=162254319}, {ReferenceType=true ReferencedSize=19088743 SubsegmentDuration=591751049 StartsWithSAP=false SAPType=5 SAPDeltaTime=162254319}]" := by decide +kernel

/-- "sidx: version=1" (test/box_types.cpp:1353-1399). -/
example : passes ⟨0x73, 0x69, 0x64, 0x78⟩
    [0x01, 0x00, 0x00, 0x00, 0x01, 0x23, 0x45, 0x67, 0x23, 0x45, 0x67, 0x89, 0x01, 0x23, 0x45, 0x67, 0x89, 0xab, 0xcd, 0xef, 0x23, 0x45, 0x67, 0x89, 0xab, 0xcd, 0xef, 0x01, 0x00, 0x00, 0x00, 0x02, 0x01, 0x23, 0x45, 0x67, 0x23, 0x45, 0x67, 0x89, 0xe9, 0xab, 0xcd, 0xef, 0x81, 0x23, 0x45, 0x67, 0x23, 0x45, 0x67, 0x89, 0x59, 0xab, 0xcd, 0xef]
    b!"Version=1 Flags=0x000000 ReferenceID=19088743 Timescale=591751049 EarliestPresentationTime=81985529216486895 FirstOffset=2541551405711093505 ReferenceCount=2 References=[{ReferenceType=false ReferencedSize=19088743 SubsegmentDuration=591751049 StartsWithSAP=true SAPType=6 SAPDeltaTime=162254319}, {ReferenceType=true ReferencedSize=19088743 SubsegmentDuration=591751049 StartsWithSAP=false SAPType=5 SAPDeltaTime=162254319}]" := by decide +kernel

/-- "sinf" (test/box_types.cpp:1400-1406). -/
example : passes ⟨0x73, 0x69, 0x6e, 0x66⟩
    []
    b!"" := by decide +kernel

/-- "smhd" (test/box_types.cpp:1407-1418). -/
example : passes ⟨0x73, 0x6d, 0x68, 0x64⟩
    [0x00, 0x00, 0x00, 0x00, 0x01, 0x23, 0x00, 0x00]
    b!"Version=0 Flags=0x000000 Balance=1.14" := by decide +kernel

/-- "stbl" (test/box_types.cpp:1419-1425). -/
example : passes ⟨0x73, 0x74, 0x62, 0x6c⟩
    []
    b!"" := by decide +kernel

/-- "stco" (test/box_types.cpp:1426-1438). -/
example : passes ⟨0x73, 0x74, 0x63, 0x6f⟩
    [0x00, 0x00, 0x00, 0x00, 0x00, 0x00, 0x00, 0x02, 0x01, 0x23, 0x45, 0x67, 0x89, 0xab, 0xcd, 0xef]
    b!"Version=0 Flags=0x000000 EntryCount=2 ChunkOffsets=[0x1234567, 0x89abcdef]" := by decide +kernel

/-- "stsc" (test/box_types.cpp:1439-1465). -/
example : passes ⟨0x73, 0x74, 0x73, 0x63⟩
    [0x00, 0x00, 0x00, 0x00, 0x00, 0x00, 0x00, 0x02, 0x01, 0x23, 0x45, 0x67, 0x23, 0x45, 0x67, 0x89, 0x45, 0x67, 0x89, 0xab, 0x67, 0x89, 0xab, 0xcd, 0x89, 0xab, 0xcd, 0xef, 0xab, 0xcd, 0xef, 0x01]
    b!"Version=0 Flags=0x000000 EntryCount=2 Entries=[{FirstChunk=19088743 SamplesPerChunk=591751049 SampleDescriptionIndex=1164413355}, {FirstChunk=1737075661 SamplesPerChunk=2309737967 SampleDescriptionIndex=2882400001}]" := by decide +kernel

/-- "stsd" (test/box_types.cpp:1466-1476). -/
example : passes ⟨0x73, 0x74, 0x73, 0x64⟩
    [0x00, 0x00, 0x00, 0x00, 0x01, 0x23, 0x45, 0x67]
    b!"Version=0 Flags=0x000000 EntryCount=19088743" := by decide +kernel

/-- "stss" (test/box_types.cpp:1477-1489). -/
example : passes ⟨0x73, 0x74, 0x73, 0x73⟩
    [0x00, 0x00, 0x00, 0x00, 0x00, 0x00, 0x00, 0x02, 0x01, 0x23, 0x45, 0x67, 0x89, 0xab, 0xcd, 0xef]
    b!"Version=0 Flags=0x000000 EntryCount=2 SampleNumbers=[19088743, 2309737967]" := by decide +kernel

/-- "stsz: common sample size" (test/box_types.cpp:1490-1501). -/
example : passes ⟨0x73, 0x74, 0x73, 0x7a⟩
    [0x00, 0x00, 0x00, 0x00, 0x01, 0x23, 0x45, 0x67, 0x00, 0x00, 0x00, 0x00]
    b!"Version=0 Flags=0x000000 SampleSize=19088743 SampleCount=0 EntrySizes=[]" := by decide +kernel

/-- "stsz: sample size array" (test/box_types.cpp:1502-1515). -/
example : passes ⟨0x73, 0x74, 0x73, 0x7a⟩
    [0x00, 0x00, 0x00, 0x00, 0x00, 0x00, 0x00, 0x00, 0x00, 0x00, 0x00, 0x02, 0x01, 0x23, 0x45, 0x67, 0x23, 0x45, 0x67, 0x89]
    b!"Version=0 Flags=0x000000 SampleSize=0 SampleCount=2 EntrySizes=[19088743, 591751049]" := by decide +kernel

/-- "stts" (test/box_types.cpp:1516-1536). -/
example : passes ⟨0x73, 0x74, 0x74, 0x73⟩
    [0x00, 0x00, 0x00, 0x00, 0x00, 0x00, 0x00, 0x02, 0x01, 0x23, 0x45, 0x67, 0x23, 0x45, 0x67, 0x89, 0x45, 0x67, 0x89, 0xab, 0x67, 0x89, 0xab, 0xcd]
    b!"Version=0 Flags=0x000000 EntryCount=2 Entries=[{SampleCount=19088743 SampleDuration=591751049}, {SampleCount=1164413355 SampleDuration=1737075661}]" := by decide +kernel

/-- "styp" (test/box_types.cpp:1537-1554). -/
example : passes ⟨0x73, 0x74, 0x79, 0x70⟩
    [0x61, 0x62, 0x65, 0x6d, 0x12, 0x34, 0x56, 0x78, 0x61, 0x62, 0x63, 0x64, 0x65, 0x66, 0x67, 0x68]
    b!"MajorBrand=\"abem\" MinorVersion=305419896 CompatibleBrands=[{CompatibleBrand=\"abcd\"}, {CompatibleBrand=\"efgh\"}]" := by decide +kernel

/-- "tfdt: version 0" (test/box_types.cpp:1555-1565). -/
example : passes ⟨0x74, 0x66, 0x64, 0x74⟩
    [0x00, 0x00, 0x00, 0x00, 0x01, 0x23, 0x45, 0x67]
    b!"Version=0 Flags=0x000000 BaseMediaDecodeTime=19088743" := by decide +kernel

/-- "tfdt: version 1" (test/box_types.cpp:1566-1576). -/
example : passes ⟨0x74, 0x66, 0x64, 0x74⟩
    [0x01, 0x00, 0x00, 0x00, 0x01, 0x23, 0x45, 0x67, 0x89, 0xab, 0xcd, 0xef]
    b!"Version=1 Flags=0x000000 BaseMediaDecodeTime=81985529216486895" := by decide +kernel

/-- "tfhd: no flags" (test/box_types.cpp:1577-1587). -/
example : passes ⟨0x74, 0x66, 0x68, 0x64⟩
    [0x00, 0x00, 0x00, 0x00, 0x08, 0x40, 0x46, 0x49]
    b!"Version=0 Flags=0x000000 TrackID=138430025" := by decide +kernel

/-- "tfhd: base data offset & default sample duration" (test/box_types.cpp:1588-1607). -/
example : passes ⟨0x74, 0x66, 0x68, 0x64⟩
    [0x00, 0x00, 0x00, 0x09, 0x08, 0x40, 0x46, 0x49, 0x01, 0x23, 0x45, 0x67, 0x89, 0xab, 0xcd, 0xef, 0x23, 0x45, 0x67, 0x89]
    b!"Version=0 Flags=0x000009 TrackID=138430025 BaseDataOffset=81985529216486895 DefaultSampleDuration=591751049" := by decide +kernel

/-- "tfra: version 0" (test/box_types.cpp:1608-1652). -/
example : passes ⟨0x74, 0x66, 0x72, 0x61⟩
    [0x00, 0x00, 0x00, 0x00, 0x11, 0x11, 0x11, 0x11, 0x00, 0x00, 0x00, 0x1b, 0x00, 0x00, 0x00, 0x02, 0x22, 0x22, 0x22, 0x22, 0x33, 0x33, 0x33, 0x33, 0x44, 0x44, 0x55, 0x55, 0x55, 0x66, 0x66, 0x66, 0x66, 0x77, 0x77, 0x77, 0x77, 0x88, 0x88, 0x88, 0x88, 0x99, 0x99, 0xaa, 0xaa, 0xaa, 0xbb, 0xbb, 0xbb, 0xbb]
    b!"Version=0 Flags=0x000000 TrackID=286331153 LengthSizeOfTrafNum=0x1 LengthSizeOfTrunNum=0x2 LengthSizeOfSampleNum=0x3 NumberOfEntry=2 Entries=[{Time=572662306 MoofOffset=858993459 TrafNumber=17476 TrunNumber=5592405 SampleNumber=1717986918}, {Time=2004318071 MoofOffset=2290649224 TrafNumber=39321 TrunNumber=11184810 SampleNumber=3149642683}]" := by decide +kernel

/-- "tfra: version 1" (test/box_types.cpp:1653-1705). -/
example : passes ⟨0x74, 0x66, 0x72, 0x61⟩
    [0x01, 0x00, 0x00, 0x00, 0x11, 0x11, 0x11, 0x11, 0x00, 0x00, 0x00, 0x1b, 0x00, 0x00, 0x00, 0x02, 0x22, 0x22, 0x22, 0x22, 0x22, 0x22, 0x22, 0x22, 0x33, 0x33, 0x33, 0x33, 0x33, 0x33, 0x33, 0x33, 0x44, 0x44, 0x55, 0x55, 0x55, 0x66, 0x66, 0x66, 0x66, 0x77, 0x77, 0x77, 0x77, 0x77, 0x77, 0x77, 0x77, 0x88, 0x88, 0x88, 0x88, 0x88, 0x88, 0x88, 0x88, 0x99, 0x99, 0xaa, 0xaa, 0xaa, 0xbb, 0xbb, 0xbb, 0xbb]
    b!"Version=1 Flags=0x000000 TrackID=286331153 LengthSizeOfTrafNum=0x1 LengthSizeOfTrunNum=0x2 LengthSizeOfSampleNum=0x3 NumberOfEntry=2 Entries=[{Time=2459565876494606882 MoofOffset=3689348814741910323 TrafNumber=17476 TrunNumber=5592405 SampleNumber=1717986918}, {Time=8608480567731124087 MoofOffset=9838263505978427528 TrafNumber=39321 TrunNumber=11184810 SampleNumber=3149642683}]" := by decide +kernel

end Conformance
end Mp4
