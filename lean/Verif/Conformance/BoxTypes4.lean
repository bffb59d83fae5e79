import Verif.Conformance.Harness

/-! # Test vectors of `test/box_types.cpp`, part 4 (generated) -/

namespace Mp4
namespace Conformance

/-- "tkhd: version 0" (test/box_types.cpp:1706-1752). -/
example : passes ⟨0x74, 0x6b, 0x68, 0x64⟩
    [0x00, 0x00, 0x00, 0x00, 0x01, 0x23, 0x45, 0x67, 0x12, 0x34, 0x56, 0x78, 0x23, 0x45, 0x67, 0x89, 0x00, 0x00, 0x00, 0x00, 0x45, 0x67, 0x89, 0xab, 0x00, 0x00, 0x00, 0x00, 0x00, 0x00, 0x00, 0x00, 0x5b, 0xa0, 0xa4, 0x60, 0x01, 0x00, 0x00, 0x00, 0x00, 0x01, 0x00, 0x00, 0x00, 0x00, 0x00, 0x00, 0x00, 0x00, 0x00, 0x00, 0x00, 0x00, 0x00, 0x00, 0x00, 0x01, 0x00, 0x00, 0x00, 0x00, 0x00, 0x00, 0x00, 0x00, 0x00, 0x00, 0x00, 0x00, 0x00, 0x00, 0x40, 0x00, 0x00, 0x00, 0x07, 0x80, 0x00, 0x00, 0x04, 0x38, 0x00, 0x00]
    b!"Version=0 Flags=0x000000 CreationTime=\"1904-08-08T22:25:43Z\" ModificationTime=\"1913-09-04T22:51:36Z\" TrackID=591751049 Duration=1164413355 Layer=23456 AlternateGroup=-23456 Volume=256 Matrix=[0x10000, 0x0, 0x0, 0x0, 0x10000, 0x0, 0x0, 0x0, 0x40000000] Width=1920.0000 Height=1080.0000" := by decide +kernel

/-- "tkhd: version 1" (test/box_types.cpp:1753-1800). -/
example : passes ⟨0x74, 0x6b, 0x68, 0x64⟩
    [0x01, 0x00, 0x00, 0x00, 0x00, 0x00, 0x00, 0x00, 0x01, 0x23, 0x45, 0x67, 0x00, 0x00, 0x00, 0x00, 0x12, 0x34, 0x56, 0x78, 0x23, 0x45, 0x67, 0x89, 0x00, 0x00, 0x00, 0x00, 0x00, 0x00, 0x00, 0x00, 0x45, 0x67, 0x89, 0xab, 0x00, 0x00, 0x00, 0x00, 0x00, 0x00, 0x00, 0x00, 0x5b, 0xa0, 0xa4, 0x60, 0x01, 0x00, 0x00, 0x00, 0x00, 0x01, 0x00, 0x00, 0x00, 0x00, 0x00, 0x00, 0x00, 0x00, 0x00, 0x00, 0x00, 0x00, 0x00, 0x00, 0x00, 0x01, 0x00, 0x00, 0x00, 0x00, 0x00, 0x00, 0x00, 0x00, 0x00, 0x00, 0x00, 0x00, 0x00, 0x00, 0x40, 0x00, 0x00, 0x00, 0x07, 0x80, 0x00, 0x00, 0x04, 0x38, 0x00, 0x00]
    b!"Version=1 Flags=0x000000 CreationTime=\"1904-08-08T22:25:43Z\" ModificationTime=\"1913-09-04T22:51:36Z\" TrackID=591751049 Duration=1164413355 Layer=23456 AlternateGroup=-23456 Volume=256 Matrix=[0x10000, 0x0, 0x0, 0x0, 0x10000, 0x0, 0x0, 0x0, 0x40000000] Width=1920.0000 Height=1080.0000" := by decide +kernel

/-- "traf" (test/box_types.cpp:1801-1801). -/
example : passes ⟨0x74, 0x72, 0x61, 0x66⟩
    []
    b!"" := by decide +kernel

/-- "trak" (test/box_types.cpp:1802-1802). -/
example : passes ⟨0x74, 0x72, 0x61, 0x6b⟩
    []
    b!"" := by decide +kernel

/-- "trex" (test/box_types.cpp:1803-1822). -/
example : passes ⟨0x74, 0x72, 0x65, 0x78⟩
    [0x00, 0x00, 0x00, 0x00, 0x01, 0x23, 0x45, 0x67, 0x23, 0x45, 0x67, 0x89, 0x45, 0x67, 0x89, 0xab, 0x67, 0x89, 0xab, 0xcd, 0x89, 0xab, 0xcd, 0xef]
    b!"Version=0 Flags=0x000000 TrackID=19088743 DefaultSampleDescriptionIndex=591751049 DefaultSampleDuration=1164413355 DefaultSampleSize=1737075661 DefaultSampleFlags=0x89abcdef" := by decide +kernel

/-- "trun: version=0 flag=0x101" (test/box_types.cpp:1823-1856). -/
example : passes ⟨0x74, 0x72, 0x75, 0x6e⟩
    [0x00, 0x00, 0x01, 0x01, 0x00, 0x00, 0x00, 0x03, 0x00, 0x00, 0x00, 0x32, 0x00, 0x00, 0x00, 0x64, 0x00, 0x00, 0x00, 0x65, 0x00, 0x00, 0x00, 0x66]
    b!"Version=0 Flags=0x000101 SampleCount=3 DataOffset=50 Entries=[{SampleDuration=100}, {SampleDuration=101}, {SampleDuration=102}]" := by decide +kernel

/-- "trun: version=0 flag=0x204" (test/box_types.cpp:1857-1890). -/
example : passes ⟨0x74, 0x72, 0x75, 0x6e⟩
    [0x00, 0x00, 0x02, 0x04, 0x00, 0x00, 0x00, 0x03, 0x02, 0x46, 0x8a, 0xce, 0x00, 0x00, 0x00, 0x64, 0x00, 0x00, 0x00, 0x65, 0x00, 0x00, 0x00, 0x66]
    b!"Version=0 Flags=0x000204 SampleCount=3 FirstSampleFlags=0x2468ace Entries=[{SampleSize=100}, {SampleSize=101}, {SampleSize=102}]" := by decide +kernel

/-- "trun: version=0 flag=0xc00" (test/box_types.cpp:1891-1915). -/
example : passes ⟨0x74, 0x72, 0x75, 0x6e⟩
    [0x00, 0x00, 0x0c, 0x00, 0x00, 0x00, 0x00, 0x03, 0x00, 0x00, 0x00, 0x64, 0x00, 0x00, 0x00, 0xc8, 0x00, 0x00, 0x00, 0x65, 0x00, 0x00, 0x00, 0xc9, 0x00, 0x00, 0x00, 0x66, 0x00, 0x00, 0x00, 0xca]
    b!"Version=0 Flags=0x000c00 SampleCount=3 Entries=[{SampleFlags=0x64 SampleCompositionTimeOffset=200}, {SampleFlags=0x65 SampleCompositionTimeOffset=201}, {SampleFlags=0x66 SampleCompositionTimeOffset=202}]" := by decide +kernel

/-- "trun: version=1 flag=0x800" (test/box_types.cpp:1916-1935). -/
example : passes ⟨0x74, 0x72, 0x75, 0x6e⟩
    [0x01, 0x00, 0x08, 0x00, 0x00, 0x00, 0x00, 0x03, 0x00, 0x00, 0x00, 0xc8, 0x00, 0x00, 0x00, 0xc9, 0xff, 0xff, 0xff, 0x36]
    b!"Version=1 Flags=0x000800 SampleCount=3 Entries=[{SampleCompositionTimeOffset=200}, {SampleCompositionTimeOffset=201}, {SampleCompositionTimeOffset=-202}]" := by decide +kernel

/-- "udta" (test/box_types.cpp:1936-1936). -/
example : passes ⟨0x75, 0x64, 0x74, 0x61⟩
    []
    b!"" := by decide +kernel

/-- "vmhd" (test/box_types.cpp:1937-1946). -/
example : passes ⟨0x76, 0x6d, 0x68, 0x64⟩
    [0x00, 0x00, 0x00, 0x00, 0x01, 0x23, 0x23, 0x45, 0x45, 0x67, 0x67, 0x89]
    b!"Version=0 Flags=0x000000 Graphicsmode=291 Opcolor=[9029, 17767, 26505]" := by decide +kernel

/-- "dOps" (test/box_types.cpp:1947-1957). -/
example : passes ⟨0x64, 0x4f, 0x70, 0x73⟩
    [0x00, 0x02, 0x01, 0x38, 0x00, 0x00, 0xbb, 0x80, 0x00, 0x00, 0x00]
    b!"Version=0 OutputChannelCount=2 PreSkip=312 InputSampleRate=48000 OutputGain=0 ChannelMappingFamily=0" := by decide +kernel

/-- "btrt" (test/box_types.cpp:1958-1962). -/
example : passes ⟨0x62, 0x74, 0x72, 0x74⟩
    [0x00, 0x00, 0x02, 0x4a, 0x00, 0x01, 0xe9, 0x20, 0x00, 0x01, 0xc2, 0x88]
    b!"DecodingBufferSize=586 MaxBitrate=125216 AvgBitrate=115336" := by decide +kernel

/-- "iods" (test/box_types.cpp:1963-1975). -/
example : passes ⟨0x69, 0x6f, 0x64, 0x73⟩
    [0x00, 0x00, 0x00, 0x00, 0x10, 0x80, 0x80, 0x80, 0x07, 0x00, 0x4f, 0xff, 0xff, 0xfe, 0xff, 0xff]
    b!"Version=0 Flags=0x000000 TypeTag=0x10 ODID=79 ODProfileLevel=0xff SceneProfileLevel=0xff AudioProfileLevel=0xfe VideoProfileLevel=0xff GraphicsProfileLevel=0xff" := by decide +kernel

/-- "vpcC" (test/box_types.cpp:1976-1988). -/
example : passes ⟨0x76, 0x70, 0x63, 0x43⟩
    [0x01, 0x00, 0x00, 0x00, 0x00, 0x00, 0x80, 0xff, 0xff, 0x00, 0x00, 0x00]
    b!"Version=1 Flags=0x000000 Profile=0 Level=0 BitDepth=8 ChromaSubSampling=0 VideoFullRangeFlag=0 ColourPrimaries=255 TransferCharacteristics=255 MatrixCoefficients=0 CodecInitializationData=[]" := by decide +kernel

/-- "vpcC version: 0" (test/box_types.cpp:1989-2002). -/
example : passes ⟨0x76, 0x70, 0x63, 0x43⟩
    [0x00, 0x00, 0x00, 0x00, 0x00, 0x00, 0x80, 0xff, 0xff, 0x00]
    b!"Version=0 Flags=0x000000 Profile=0 Level=0 BitDepth=8 ChromaSubSampling=0 VideoFullRangeFlag=0 ColourPrimaries=255 TransferCharacteristics=255 MatrixCoefficients=0 CodecInitializationData=[]" := by decide +kernel

/-- "sdtp" (test/box_types.cpp:2003-2032). -/
example : passes ⟨0x73, 0x64, 0x74, 0x70⟩
    [0x00, 0x00, 0x00, 0x00, 0x00, 0x1b, 0xe4]
    b!"Version=0 Flags=0x000000 Samples=[{IsLeading=0x0 SampleDependsOn=0x0 SampleIsDependedOn=0x0 SampleHasRedundancy=0x0}, {IsLeading=0x0 SampleDependsOn=0x1 SampleIsDependedOn=0x2 SampleHasRedundancy=0x3}, {IsLeading=0x3 SampleDependsOn=0x2 SampleIsDependedOn=0x1 SampleHasRedundancy=0x0}]" := by decide +kernel

/-- "ilst meta" (test/box_types.cpp:2033-2039). -/
example : passes ⟨0x2d, 0x2d, 0x2d, 0x2d⟩
    []
    b!"" := by decide +kernel

/-- "ilst data (binary)" (test/box_types.cpp:2040-2051). -/
example : passes ⟨0x64, 0x61, 0x74, 0x61⟩
    [0x00, 0x00, 0x00, 0x00, 0x12, 0x34, 0x56, 0x78, 0x66, 0x6f, 0x6f]
    b!"DataType=BINARY DataLang=305419896 Data=[0x66, 0x6f, 0x6f]" := by decide +kernel

/-- "ilst data (utf8)" (test/box_types.cpp:2052-2063). -/
example : passes ⟨0x64, 0x61, 0x74, 0x61⟩
    [0x00, 0x00, 0x00, 0x01, 0x12, 0x34, 0x56, 0x78, 0x66, 0x6f, 0x6f]
    b!"DataType=UTF8 DataLang=305419896 Data=\"foo\"" := by decide +kernel

/-- "ilst data (utf8 escaped)" (test/box_types.cpp:2064-2076). -/
example : passes ⟨0x64, 0x61, 0x74, 0x61⟩
    [0x00, 0x00, 0x00, 0x01, 0x12, 0x34, 0x56, 0x78, 0x00, 0x66, 0x6f, 0x6f]
    b!"DataType=UTF8 DataLang=305419896 Data=\".foo\"" := by decide +kernel

/-- "ilst data (utf16)" (test/box_types.cpp:2077-2089). -/
example : passes ⟨0x64, 0x61, 0x74, 0x61⟩
    [0x00, 0x00, 0x00, 0x02, 0x12, 0x34, 0x56, 0x78, 0x66, 0x6f, 0x6f]
    b!"DataType=UTF16 DataLang=305419896 Data=[0x66, 0x6f, 0x6f]" := by decide +kernel

/-- "ilst data (utf16)" (test/box_types.cpp:2090-2101). -/
example : passes ⟨0x64, 0x61, 0x74, 0x61⟩
    [0x00, 0x00, 0x00, 0x03, 0x12, 0x34, 0x56, 0x78, 0x66, 0x6f, 0x6f]
    b!"DataType=MAC_STR DataLang=305419896 Data=[0x66, 0x6f, 0x6f]" := by decide +kernel

/-- "ilst data (jpsg)" (test/box_types.cpp:2102-2113). -/
example : passes ⟨0x64, 0x61, 0x74, 0x61⟩
    [0x00, 0x00, 0x00, 0x0e, 0x12, 0x34, 0x56, 0x78, 0x66, 0x6f, 0x6f]
    b!"DataType=JPEG DataLang=305419896 Data=[0x66, 0x6f, 0x6f]" := by decide +kernel

/-- "ilst data (int)" (test/box_types.cpp:2114-2126). -/
example : passes ⟨0x64, 0x61, 0x74, 0x61⟩
    [0x00, 0x00, 0x00, 0x15, 0x12, 0x34, 0x56, 0x78, 0x66, 0x6f, 0x6f]
    b!"DataType=INT DataLang=305419896 Data=[0x66, 0x6f, 0x6f]" := by decide +kernel

/-- "ilst data (float32)" (test/box_types.cpp:2127-2139). -/
example : passes ⟨0x64, 0x61, 0x74, 0x61⟩
    [0x00, 0x00, 0x00, 0x16, 0x12, 0x34, 0x56, 0x78, 0x66, 0x6f, 0x6f]
    b!"DataType=FLOAT32 DataLang=305419896 Data=[0x66, 0x6f, 0x6f]" := by decide +kernel

/-- "ilst data (float64)" (test/box_types.cpp:2140-2152). -/
example : passes ⟨0x64, 0x61, 0x74, 0x61⟩
    [0x00, 0x00, 0x00, 0x17, 0x12, 0x34, 0x56, 0x78, 0x66, 0x6f, 0x6f]
    b!"DataType=FLOAT64 DataLang=305419896 Data=[0x66, 0x6f, 0x6f]" := by decide +kernel

/-- "av1C" (test/box_types.cpp:2153-2168). -/
example : passes ⟨0x61, 0x76, 0x31, 0x43⟩
    [0x81, 0x00, 0x00, 0x00, 0x0a, 0x0b, 0x00, 0x00, 0x00, 0x04, 0x47, 0x7e, 0x1a, 0xff, 0xfc, 0xc0, 0x20]
    b!"Marker=1 Version=1 SeqProfile=0 SeqLevelIdx0=0 SeqTier0=0 HighBitdepth=false TwelveBit=false Monochrome=false ChromaSubsamplingX=0 ChromaSubsamplingY=0 ChromaSamplePosition=0 InitialPresentationDelayPresent=false ConfigOBUs=[0xa, 0xb, 0x0, 0x0, 0x0, 0x4, 0x47, 0x7e, 0x1a, 0xff, 0xfc, 0xc0, 0x20]" := by decide +kernel

end Conformance
end Mp4
