import Verif.Conformance.Harness

/-! # Test vectors of `test/box_types.cpp`, part 2 (generated) -/

namespace Mp4
namespace Conformance

/-- "mvhd: version 1" (test/box_types.cpp:592-626). -/
example : passes ⟨0x6d, 0x76, 0x68, 0x64⟩
    [0x01, 0x00, 0x00, 0x00, 0x01, 0x23, 0x45, 0x67, 0x89, 0xab, 0xcd, 0xef, 0x23, 0x45, 0x67, 0x89, 0xab, 0xcd, 0xef, 0x01, 0x89, 0xab, 0xcd, 0xef, 0x45, 0x67, 0x89, 0xab, 0xcd, 0xef, 0x01, 0x23, 0xfe, 0xdc, 0xba, 0x99, 0x01, 0x23, 0x00, 0x00, 0x00, 0x00, 0x00, 0x00, 0x00, 0x00, 0x00, 0x00, 0x00, 0x00, 0x00, 0x00, 0x00, 0x00, 0x00, 0x00, 0x00, 0x00, 0x00, 0x00, 0x00, 0x00, 0x00, 0x00, 0x00, 0x00, 0x00, 0x00, 0x00, 0x00, 0x00, 0x00, 0x00, 0x00, 0x00, 0x00, 0x00, 0x00, 0x00, 0x00, 0x00, 0x00, 0x00, 0x00, 0x00, 0x00, 0x00, 0x00, 0x00, 0x00, 0x00, 0x00, 0x00, 0x00, 0x00, 0x00, 0x00, 0x00, 0x00, 0x00, 0x00, 0x00, 0x00, 0x00, 0x00, 0x00, 0x00, 0x00, 0xab, 0xcd, 0xef, 0x01]
    b!"Version=1 Flags=0x000000 CreationTime=\"0000-00-00T00:00:00Z\" ModificationTime=\"0000-00-00T00:00:00Z\" Timescale=2309737967 Duration=5001117282205630755 Rate=-291.2711 Volume=291 Matrix=[0x0, 0x0, 0x0, 0x0, 0x0, 0x0, 0x0, 0x0, 0x0] PreDefined=[0, 0, 0, 0, 0, 0] NextTrackID=2882400001" := by decide +kernel

/-- "pssh: version 0: no KIDs" (test/box_types.cpp:627-642). -/
example : passes ⟨0x70, 0x73, 0x73, 0x68⟩
    [0x00, 0x00, 0x00, 0x00, 0x01, 0x02, 0x03, 0x04, 0x05, 0x06, 0x07, 0x08, 0x09, 0x0a, 0x0b, 0x0c, 0x0d, 0x0e, 0x0f, 0x10, 0x00, 0x00, 0x00, 0x05, 0x21, 0x22, 0x23, 0x24, 0x25]
    b!"Version=0 Flags=0x000000 SystemID=\"0102030405060708090a0b0c0d0e0f10\" DataSize=5 Data=[0x21, 0x22, 0x23, 0x24, 0x25]" := by decide +kernel

/-- "pssh: version 1: with KIDs" (test/box_types.cpp:643-671). -/
example : passes ⟨0x70, 0x73, 0x73, 0x68⟩
    [0x01, 0x00, 0x00, 0x00, 0x01, 0x02, 0x03, 0x04, 0x05, 0x06, 0x07, 0x08, 0x09, 0x0a, 0x0b, 0x0c, 0x0d, 0x0e, 0x0f, 0x10, 0x00, 0x00, 0x00, 0x02, 0x11, 0x12, 0x13, 0x14, 0x15, 0x16, 0x17, 0x18, 0x19, 0x1a, 0x1b, 0x1c, 0x1d, 0x1e, 0x1f, 0x10, 0x21, 0x22, 0x23, 0x24, 0x25, 0x26, 0x27, 0x28, 0x29, 0x2a, 0x2b, 0x2c, 0x2d, 0x2e, 0x2f, 0x20, 0x00, 0x00, 0x00, 0x05, 0x21, 0x22, 0x23, 0x24, 0x25]
    b!"Version=1 Flags=0x000000 SystemID=\"0102030405060708090a0b0c0d0e0f10\" KIDCount=2 KIDs=[\"1112131415161718191a1b1c1d1e1f10\" \"2122232425262728292a2b2c2d2e2f20\"] DataSize=5 Data=[0x21, 0x22, 0x23, 0x24, 0x25]" := by decide +kernel

/-- "VisualSampleEntry" (test/box_types.cpp:672-703). -/
example : passes ⟨0x61, 0x76, 0x63, 0x31⟩
    [0x00, 0x00, 0x00, 0x00, 0x00, 0x00, 0x12, 0x34, 0x01, 0x01, 0x00, 0x00, 0x01, 0x00, 0x00, 0x01, 0x01, 0x00, 0x00, 0x02, 0x01, 0x00, 0x00, 0x03, 0x01, 0x02, 0x01, 0x03, 0x01, 0x00, 0x00, 0x04, 0x01, 0x00, 0x00, 0x05, 0x00, 0x00, 0x00, 0x00, 0x01, 0x04, 0x09, 0x73, 0x68, 0x69, 0x67, 0x75, 0x72, 0x65, 0x64, 0x6f, 0x00, 0x00, 0x00, 0x00, 0x00, 0x00, 0x00, 0x00, 0x00, 0x00, 0x00, 0x00, 0x00, 0x00, 0x00, 0x00, 0x00, 0x00, 0x00, 0x00, 0x00, 0x00, 0x01, 0x05, 0x03, 0xe9]
    b!"DataReferenceIndex=4660 PreDefined=257 PreDefined2=[16777217, 16777218, 16777219] Width=258 Height=259 Horizresolution=16777220 Vertresolution=16777221 FrameCount=260 Compressorname=\"shiguredo\" Depth=261 PreDefined3=1001" := by decide +kernel

/-- "AudioSampleEntry" (test/box_types.cpp:704-728). -/
example : passes ⟨0x65, 0x6e, 0x63, 0x61⟩
    [0x00, 0x00, 0x00, 0x00, 0x00, 0x00, 0x12, 0x34, 0x01, 0x23, 0x00, 0x00, 0x00, 0x00, 0x00, 0x00, 0x23, 0x45, 0x45, 0x67, 0x67, 0x89, 0x00, 0x00, 0x01, 0x23, 0x45, 0x67]
    b!"DataReferenceIndex=4660 EntryVersion=291 ChannelCount=9029 SampleSize=17767 PreDefined=26505 SampleRate=19088743" := by decide +kernel

/-- "AudioSampleEntry (QuickTime v1)" (test/box_types.cpp:729-760). -/
example : passes ⟨0x65, 0x6e, 0x63, 0x61⟩
    [0x00, 0x00, 0x00, 0x00, 0x00, 0x00, 0x12, 0x34, 0x00, 0x01, 0x00, 0x00, 0x00, 0x00, 0x00, 0x00, 0x23, 0x45, 0x45, 0x67, 0x67, 0x89, 0x00, 0x00, 0x01, 0x23, 0x45, 0x67, 0x00, 0x11, 0x22, 0x33, 0x44, 0x55, 0x66, 0x77, 0x88, 0x99, 0xaa, 0xbb, 0xcc, 0xdd, 0xee, 0xff]
    b!"DataReferenceIndex=4660 EntryVersion=1 ChannelCount=9029 SampleSize=17767 PreDefined=26505 SampleRate=19088743 QuickTimeData=[0x0, 0x11, 0x22, 0x33, 0x44, 0x55, 0x66, 0x77, 0x88, 0x99, 0xaa, 0xbb, 0xcc, 0xdd, 0xee, 0xff]" := by decide +kernel

/-- "AudioSampleEntry (QuickTime v2)" (test/box_types.cpp:761-801). -/
example : passes ⟨0x65, 0x6e, 0x63, 0x61⟩
    [0x00, 0x00, 0x00, 0x00, 0x00, 0x00, 0x12, 0x34, 0x00, 0x02, 0x00, 0x00, 0x00, 0x00, 0x00, 0x00, 0x23, 0x45, 0x45, 0x67, 0x67, 0x89, 0x00, 0x00, 0x01, 0x23, 0x45, 0x67, 0x00, 0x11, 0x22, 0x33, 0x44, 0x55, 0x66, 0x77, 0x88, 0x99, 0xaa, 0xbb, 0xcc, 0xdd, 0xee, 0xff, 0x00, 0x11, 0x22, 0x33, 0x44, 0x55, 0x66, 0x77, 0x88, 0x99, 0xaa, 0xbb, 0xcc, 0xdd, 0xee, 0xff, 0x00, 0x11, 0x22, 0x33]
    b!"DataReferenceIndex=4660 EntryVersion=2 ChannelCount=9029 SampleSize=17767 PreDefined=26505 SampleRate=19088743 QuickTimeData=[0x0, 0x11, 0x22, 0x33, 0x44, 0x55, 0x66, 0x77, 0x88, 0x99, 0xaa, 0xbb, 0xcc, 0xdd, 0xee, 0xff, 0x0, 0x11, 0x22, 0x33, 0x44, 0x55, 0x66, 0x77, 0x88, 0x99, 0xaa, 0xbb, 0xcc, 0xdd, 0xee, 0xff, 0x0, 0x11, 0x22, 0x33]" := by decide +kernel

/-- "AVCDecoderConfiguration main profile" (test/box_types.cpp:802-851). -/
example : passes ⟨0x61, 0x76, 0x63, 0x43⟩
    [0x12, 0x4d, 0x40, 0x1f, 0xfe, 0xe2, 0x00, 0x02, 0x12, 0x34, 0x00, 0x03, 0x12, 0x34, 0x56, 0x02, 0x00, 0x02, 0xab, 0xcd, 0x00, 0x03, 0xab, 0xcd, 0xef]
    b!"ConfigurationVersion=0x12 Profile=0x4d ProfileCompatibility=0x40 Level=0x1f LengthSizeMinusOne=0x2 NumOfSequenceParameterSets=0x2 SequenceParameterSets=[{Length=2 NALUnit=[0x12, 0x34]}, {Length=3 NALUnit=[0x12, 0x34, 0x56]}] NumOfPictureParameterSets=0x2 PictureParameterSets=[{Length=2 NALUnit=[0xab, 0xcd]}, {Length=3 NALUnit=[0xab, 0xcd, 0xef]}]" := by decide +kernel

/-- "AVCDecoderConfiguration high profile old spec" (test/box_types.cpp:852-901). -/
example : passes ⟨0x61, 0x76, 0x63, 0x43⟩
    [0x12, 0x64, 0x00, 0x28, 0xfe, 0xe2, 0x00, 0x02, 0x12, 0x34, 0x00, 0x03, 0x12, 0x34, 0x56, 0x02, 0x00, 0x02, 0xab, 0xcd, 0x00, 0x03, 0xab, 0xcd, 0xef]
    b!"ConfigurationVersion=0x12 Profile=0x64 ProfileCompatibility=0x0 Level=0x28 LengthSizeMinusOne=0x2 NumOfSequenceParameterSets=0x2 SequenceParameterSets=[{Length=2 NALUnit=[0x12, 0x34]}, {Length=3 NALUnit=[0x12, 0x34, 0x56]}] NumOfPictureParameterSets=0x2 PictureParameterSets=[{Length=2 NALUnit=[0xab, 0xcd]}, {Length=3 NALUnit=[0xab, 0xcd, 0xef]}]" := by decide +kernel

/-- "AVCDecoderConfiguration high profile new spec" (test/box_types.cpp:902-971). -/
example : passes ⟨0x61, 0x76, 0x63, 0x43⟩
    [0x12, 0x64, 0x00, 0x28, 0xfe, 0xe2, 0x00, 0x02, 0x12, 0x34, 0x00, 0x03, 0x12, 0x34, 0x56, 0x02, 0x00, 0x02, 0xab, 0xcd, 0x00, 0x03, 0xab, 0xcd, 0xef, 0xfd, 0xfa, 0xfb, 0x02, 0x00, 0x02, 0x12, 0x34, 0x00, 0x03, 0x12, 0x34, 0x56]
    b!"ConfigurationVersion=0x12 Profile=0x64 ProfileCompatibility=0x0 Level=0x28 LengthSizeMinusOne=0x2 NumOfSequenceParameterSets=0x2 SequenceParameterSets=[{Length=2 NALUnit=[0x12, 0x34]}, {Length=3 NALUnit=[0x12, 0x34, 0x56]}] NumOfPictureParameterSets=0x2 PictureParameterSets=[{Length=2 NALUnit=[0xab, 0xcd]}, {Length=3 NALUnit=[0xab, 0xcd, 0xef]}] ChromaFormat=0x1 BitDepthLumaMinus8=0x2 BitDepthChromaMinus8=0x3 NumOfSequenceParameterSetExt=0x2 SequenceParameterSetsExt=[{Length=2 NALUnit=[0x12, 0x34]}, {Length=3 NALUnit=[0x12, 0x34, 0x56]}]" := by decide +kernel

/-- "PixelAspectRatio" (test/box_types.cpp:972-987). -/
example : passes ⟨0x70, 0x61, 0x73, 0x70⟩
    [0x01, 0x23, 0x45, 0x67, 0x23, 0x45, 0x67, 0x89]
    b!"HSpacing=19088743 VSpacing=591751049" := by decide +kernel

/-- "sbgp: version 0" (test/box_types.cpp:988-1015). -/
example : passes ⟨0x73, 0x62, 0x67, 0x70⟩
    [0x00, 0x00, 0x00, 0x00, 0x72, 0x6f, 0x6c, 0x6c, 0x00, 0x00, 0x00, 0x02, 0x23, 0x45, 0x67, 0x89, 0x34, 0x56, 0x78, 0x9a, 0x45, 0x67, 0x89, 0xab, 0x56, 0x78, 0x9a, 0xbc]
    b!"Version=0 Flags=0x000000 GroupingType=\"roll\" EntryCount=2 Entries=[{SampleCount=591751049 GroupDescriptionIndex=878082202}, {SampleCount=1164413355 GroupDescriptionIndex=1450744508}]" := by decide +kernel

/-- "sbgp: version 1" (test/box_types.cpp:1016-1046). -/
example : passes ⟨0x73, 0x62, 0x67, 0x70⟩
    [0x01, 0x00, 0x00, 0x00, 0x70, 0x72, 0x6f, 0x6c, 0x89, 0xab, 0xcd, 0xef, 0x00, 0x00, 0x00, 0x02, 0x23, 0x45, 0x67, 0x89, 0x34, 0x56, 0x78, 0x9a, 0x45, 0x67, 0x89, 0xab, 0x56, 0x78, 0x9a, 0xbc]
    b!"Version=1 Flags=0x000000 GroupingType=\"prol\" GroupingTypeParameter=2309737967 EntryCount=2 Entries=[{SampleCount=591751049 GroupDescriptionIndex=878082202}, {SampleCount=1164413355 GroupDescriptionIndex=1450744508}]" := by decide +kernel

/-- "schi" (test/box_types.cpp:1047-1047). -/
example : passes ⟨0x73, 0x63, 0x68, 0x69⟩
    []
    b!"" := by decide +kernel

/-- "sgpd: version 1 roll" (test/box_types.cpp:1048-1067). -/
example : passes ⟨0x73, 0x67, 0x70, 0x64⟩
    [0x01, 0x00, 0x00, 0x00, 0x72, 0x6f, 0x6c, 0x6c, 0x00, 0x00, 0x00, 0x02, 0x00, 0x00, 0x00, 0x02, 0x11, 0x11, 0x22, 0x22]
    b!"Version=1 Flags=0x000000 GroupingType=\"roll\" DefaultLength=2 EntryCount=2 RollDistances=[4369, 8738]" := by decide +kernel

/-- "sgpd: version 1 prol" (test/box_types.cpp:1068-1087). -/
example : passes ⟨0x73, 0x67, 0x70, 0x64⟩
    [0x01, 0x00, 0x00, 0x00, 0x70, 0x72, 0x6f, 0x6c, 0x00, 0x00, 0x00, 0x02, 0x00, 0x00, 0x00, 0x02, 0x11, 0x11, 0x22, 0x22]
    b!"Version=1 Flags=0x000000 GroupingType=\"prol\" DefaultLength=2 EntryCount=2 RollDistances=[4369, 8738]" := by decide +kernel

/-- "sgpd: version 1 alst no-opts" (test/box_types.cpp:1088-1118). -/
example : passes ⟨0x73, 0x67, 0x70, 0x64⟩
    [0x01, 0x00, 0x00, 0x00, 0x61, 0x6c, 0x73, 0x74, 0x00, 0x00, 0x00, 0x0c, 0x00, 0x00, 0x00, 0x02, 0x00, 0x02, 0x01, 0x23, 0x01, 0x23, 0x45, 0x67, 0x89, 0xab, 0xcd, 0xef, 0x00, 0x02, 0x45, 0x67, 0x45, 0x67, 0x89, 0xab, 0xcd, 0xef, 0x01, 0x23]
    b!"Version=1 Flags=0x000000 GroupingType=\"alst\" DefaultLength=12 EntryCount=2 AlternativeStartupEntries=[{RollCount=2 FirstOutputSample=291 SampleOffset=[19088743, 2309737967] Opts=[]}, {RollCount=2 FirstOutputSample=17767 SampleOffset=[1164413355, 3454992675] Opts=[]}]" := by decide +kernel

end Conformance
end Mp4
