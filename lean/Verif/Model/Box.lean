import Verif.Model.Boxes.Fixed
import Verif.Model.Boxes.Versioned
import Verif.Model.Boxes.Tables
import Verif.Model.Boxes.Fragments
import Verif.Model.Boxes.Codec
import Verif.Model.Boxes.SampleEntries
import Verif.Model.Boxes.Strings
import Verif.Model.Boxes.Esds
import Verif.Model.Boxes.Sgpd
import Verif.Model.BoxMap
import Verif.Model.Header

/-!
# All box classes together

The C++ code dispatches `writeData`, `readData` and `getDataSize` through virtual functions of `Box`
(include/shiguredo/mp4/box.hpp:23-71); here they are functions on the sum of all box classes.
-/

namespace Mp4

/-- The C++ box classes, one constructor each, except that classes without own fields share one: `empty` stands for
`Dinf Edts Mdia Mfra Minf Moof Moov Mvex Schi Sinf Stbl Traf Trak Udta Wave Ilst IlstMeta` (`writeData` and
`readData` return 0, for example src/box/moov.cpp:23-29, src/box/ilst.cpp:27-45), `opaq` for `Free Skip Mdat Unsupported`, `ftyp` for
`Ftyp Styp`. -/
inductive BoxData where
  | btrt (b : Btrt)
  | pasp (b : Pasp)
  | fiel (b : Fiel)
  | smhd (b : Smhd)
  | vmhd (b : Vmhd)
  | mfhd (b : Mfhd)
  | mfro (b : Mfro)
  | dref (b : Dref)
  | stsd (b : Stsd)
  | trex (b : Trex)
  | iods (b : Iods)
  | mvhd (b : Mvhd)
  | tkhd (b : Tkhd)
  | mdhd (b : Mdhd)
  | mehd (b : Mehd)
  | tfdt (b : Tfdt)
  | elst (b : Elst)
  | sidx (b : Sidx)
  | stts (b : Stts)
  | ctts (b : Ctts)
  | stsc (b : Stsc)
  | stco (b : Stco)
  | co64 (b : Co64)
  | stss (b : Stss)
  | stsz (b : Stsz)
  | sdtp (b : Sdtp)
  | sbgp (b : Sbgp)
  | tfhd (b : Tfhd)
  | tfra (b : Tfra)
  | trun (b : Trun)
  | avcC (b : AvcC)
  | av1C (b : Av1C)
  | vpcC (b : VpcC)
  | dOps (b : DOps)
  | visual (b : VisualSampleEntry)
  | audio (b : AudioSampleEntry)
  | hdlr (b : Hdlr)
  | url (b : Url)
  | urn (b : Urn)
  | emsg (b : Emsg)
  | data (b : Data)
  | colr (b : Colr)
  | pssh (b : Pssh)
  | ftyp (b : Ftyp)
  | metaBox (b : Meta)
  | opaq (b : Opaque)
  | esds (b : Esds)
  | sgpd (b : Sgpd)
  | empty

/-- The class of a box (the factories of src/box_types.cpp:14-135). -/
inductive Kind where
  | btrt
  | pasp
  | fiel
  | smhd
  | vmhd
  | mfhd
  | mfro
  | dref
  | stsd
  | trex
  | iods
  | mvhd
  | tkhd
  | mdhd
  | mehd
  | tfdt
  | elst
  | sidx
  | stts
  | ctts
  | stsc
  | stco
  | co64
  | stss
  | stsz
  | sdtp
  | sbgp
  | tfhd
  | tfra
  | trun
  | avcC
  | av1C
  | vpcC
  | dOps
  | visual
  | audio
  | hdlr
  | url
  | urn
  | emsg
  | data
  | colr
  | pssh
  | ftyp
  | metaBox
  | opaq
  | esds
  | sgpd
  | empty
  deriving DecidableEq, Repr

namespace BoxData

/-- The class of a box object. -/
def kind : BoxData → Kind
  | .btrt _ => .btrt
  | .pasp _ => .pasp
  | .fiel _ => .fiel
  | .smhd _ => .smhd
  | .vmhd _ => .vmhd
  | .mfhd _ => .mfhd
  | .mfro _ => .mfro
  | .dref _ => .dref
  | .stsd _ => .stsd
  | .trex _ => .trex
  | .iods _ => .iods
  | .mvhd _ => .mvhd
  | .tkhd _ => .tkhd
  | .mdhd _ => .mdhd
  | .mehd _ => .mehd
  | .tfdt _ => .tfdt
  | .elst _ => .elst
  | .sidx _ => .sidx
  | .stts _ => .stts
  | .ctts _ => .ctts
  | .stsc _ => .stsc
  | .stco _ => .stco
  | .co64 _ => .co64
  | .stss _ => .stss
  | .stsz _ => .stsz
  | .sdtp _ => .sdtp
  | .sbgp _ => .sbgp
  | .tfhd _ => .tfhd
  | .tfra _ => .tfra
  | .trun _ => .trun
  | .avcC _ => .avcC
  | .av1C _ => .av1C
  | .vpcC _ => .vpcC
  | .dOps _ => .dOps
  | .visual _ => .visual
  | .audio _ => .audio
  | .hdlr _ => .hdlr
  | .url _ => .url
  | .urn _ => .urn
  | .emsg _ => .emsg
  | .data _ => .data
  | .colr _ => .colr
  | .pssh _ => .pssh
  | .ftyp _ => .ftyp
  | .metaBox _ => .metaBox
  | .opaq _ => .opaq
  | .esds _ => .esds
  | .sgpd _ => .sgpd
  | .empty => .empty

/-- Virtual `Box::writeData`. -/
def writeData : BoxData → W Nat
  | .btrt b => b.writeData
  | .pasp b => b.writeData
  | .fiel b => b.writeData
  | .smhd b => b.writeData
  | .vmhd b => b.writeData
  | .mfhd b => b.writeData
  | .mfro b => b.writeData
  | .dref b => b.writeData
  | .stsd b => b.writeData
  | .trex b => b.writeData
  | .iods b => b.writeData
  | .mvhd b => b.writeData
  | .tkhd b => b.writeData
  | .mdhd b => b.writeData
  | .mehd b => b.writeData
  | .tfdt b => b.writeData
  | .elst b => b.writeData
  | .sidx b => b.writeData
  | .stts b => b.writeData
  | .ctts b => b.writeData
  | .stsc b => b.writeData
  | .stco b => b.writeData
  | .co64 b => b.writeData
  | .stss b => b.writeData
  | .stsz b => b.writeData
  | .sdtp b => b.writeData
  | .sbgp b => b.writeData
  | .tfhd b => b.writeData
  | .tfra b => b.writeData
  | .trun b => b.writeData
  | .avcC b => b.writeData
  | .av1C b => b.writeData
  | .vpcC b => b.writeData
  | .dOps b => b.writeData
  | .visual b => b.writeData
  | .audio b => b.writeData
  | .hdlr b => b.writeData
  | .url b => b.writeData
  | .urn b => b.writeData
  | .emsg b => b.writeData
  | .data b => b.writeData
  | .colr b => b.writeData
  | .pssh b => b.writeData
  | .ftyp b => b.writeData
  | .metaBox b => b.writeData
  | .opaq b => b.writeData
  | .esds b => b.writeData
  | .sgpd b => b.writeData
  | .empty => W.pure 0

/-- Virtual `Box::getDataSize` (`Box::getDataSize` itself is 0, src/box.cpp:51-53). -/
def getDataSize : BoxData → Nat
  | .btrt b => b.getDataSize
  | .pasp b => b.getDataSize
  | .fiel b => b.getDataSize
  | .smhd b => b.getDataSize
  | .vmhd b => b.getDataSize
  | .mfhd b => b.getDataSize
  | .mfro b => b.getDataSize
  | .dref b => b.getDataSize
  | .stsd b => b.getDataSize
  | .trex b => b.getDataSize
  | .iods b => b.getDataSize
  | .mvhd b => b.getDataSize
  | .tkhd b => b.getDataSize
  | .mdhd b => b.getDataSize
  | .mehd b => b.getDataSize
  | .tfdt b => b.getDataSize
  | .elst b => b.getDataSize
  | .sidx b => b.getDataSize
  | .stts b => b.getDataSize
  | .ctts b => b.getDataSize
  | .stsc b => b.getDataSize
  | .stco b => b.getDataSize
  | .co64 b => b.getDataSize
  | .stss b => b.getDataSize
  | .stsz b => b.getDataSize
  | .sdtp b => b.getDataSize
  | .sbgp b => b.getDataSize
  | .tfhd b => b.getDataSize
  | .tfra b => b.getDataSize
  | .trun b => b.getDataSize
  | .avcC b => b.getDataSize
  | .av1C b => b.getDataSize
  | .vpcC b => b.getDataSize
  | .dOps b => b.getDataSize
  | .visual b => b.getDataSize
  | .audio b => b.getDataSize
  | .hdlr b => b.getDataSize
  | .url b => b.getDataSize
  | .urn b => b.getDataSize
  | .emsg b => b.getDataSize
  | .data b => b.getDataSize
  | .colr b => b.getDataSize
  | .pssh b => b.getDataSize
  | .ftyp b => b.getDataSize
  | .metaBox b => b.getDataSize
  | .opaq b => b.getDataSize
  | .esds b => b.getDataSize
  | .sgpd b => b.getDataSize
  | .empty => 0

end BoxData

/-- The contents of freshly constructed box objects, as far as `readData` does not overwrite them.  Some C++
constructors leave members uninitialised (for example `Tfhd`, `AVCDecoderConfiguration`); the theorems hold whatever
those members contain. -/
structure Env where
  sbgp : BitVec 32
  tfhd : Tfhd
  trun : Trun
  avcC : AvcC
  audio : AudioSampleEntry
  url : Url
  urn : Urn
  colr : Colr
  pssh : Pssh
  esds : ESJunk
  sgpd : Sgpd

/-- Virtual `Box::readData` on a fresh object of class `k` that was given type `t` and, when `wave`, marked as lying
below a `wave` box. -/
def BoxData.readData (env : Env) (t : BoxType) (wave : Bool) : Kind → R (Nat × BoxData)
  | .btrt => ((Btrt.readData).bind fun x => .ret (x.1, .btrt x.2))
  | .pasp => ((Pasp.readData).bind fun x => .ret (x.1, .pasp x.2))
  | .fiel => ((Fiel.readData).bind fun x => .ret (x.1, .fiel x.2))
  | .smhd => ((Smhd.readData).bind fun x => .ret (x.1, .smhd x.2))
  | .vmhd => ((Vmhd.readData).bind fun x => .ret (x.1, .vmhd x.2))
  | .mfhd => ((Mfhd.readData).bind fun x => .ret (x.1, .mfhd x.2))
  | .mfro => ((Mfro.readData).bind fun x => .ret (x.1, .mfro x.2))
  | .dref => ((Dref.readData).bind fun x => .ret (x.1, .dref x.2))
  | .stsd => ((Stsd.readData).bind fun x => .ret (x.1, .stsd x.2))
  | .trex => ((Trex.readData).bind fun x => .ret (x.1, .trex x.2))
  | .iods => ((Iods.readData).bind fun x => .ret (x.1, .iods x.2))
  | .mvhd => ((Mvhd.readData).bind fun x => .ret (x.1, .mvhd x.2))
  | .tkhd => ((Tkhd.readData).bind fun x => .ret (x.1, .tkhd x.2))
  | .mdhd => ((Mdhd.readData).bind fun x => .ret (x.1, .mdhd x.2))
  | .mehd => ((Mehd.readData).bind fun x => .ret (x.1, .mehd x.2))
  | .tfdt => ((Tfdt.readData).bind fun x => .ret (x.1, .tfdt x.2))
  | .elst => ((Elst.readData).bind fun x => .ret (x.1, .elst x.2))
  | .sidx => ((Sidx.readData).bind fun x => .ret (x.1, .sidx x.2))
  | .stts => ((Stts.readData).bind fun x => .ret (x.1, .stts x.2))
  | .ctts => ((Ctts.readData).bind fun x => .ret (x.1, .ctts x.2))
  | .stsc => ((Stsc.readData).bind fun x => .ret (x.1, .stsc x.2))
  | .stco => ((Stco.readData).bind fun x => .ret (x.1, .stco x.2))
  | .co64 => ((Co64.readData).bind fun x => .ret (x.1, .co64 x.2))
  | .stss => ((Stss.readData).bind fun x => .ret (x.1, .stss x.2))
  | .stsz => ((Stsz.readData).bind fun x => .ret (x.1, .stsz x.2))
  | .sdtp => ((Sdtp.readData).bind fun x => .ret (x.1, .sdtp x.2))
  | .sbgp => ((Sbgp.readData env.sbgp).bind fun x => .ret (x.1, .sbgp x.2))
  | .tfhd => ((Tfhd.readData env.tfhd).bind fun x => .ret (x.1, .tfhd x.2))
  | .tfra => ((Tfra.readData).bind fun x => .ret (x.1, .tfra x.2))
  | .trun => ((Trun.readData env.trun).bind fun x => .ret (x.1, .trun x.2))
  | .avcC => ((AvcC.readData env.avcC).bind fun x => .ret (x.1, .avcC x.2))
  | .av1C => ((Av1C.readData).bind fun x => .ret (x.1, .av1C x.2))
  | .vpcC => ((VpcC.readData).bind fun x => .ret (x.1, .vpcC x.2))
  | .dOps => ((DOps.readData).bind fun x => .ret (x.1, .dOps x.2))
  | .visual => ((VisualSampleEntry.readData t).bind fun x => .ret (x.1, .visual x.2))
  | .audio => ((AudioSampleEntry.readData { env.audio with type := t, under_wave := wave }).bind fun x => .ret (x.1, .audio x.2))
  | .hdlr => ((Hdlr.readData).bind fun x => .ret (x.1, .hdlr x.2))
  | .url => ((Url.readData env.url).bind fun x => .ret (x.1, .url x.2))
  | .urn => ((Urn.readData env.urn).bind fun x => .ret (x.1, .urn x.2))
  | .emsg => ((Emsg.readData).bind fun x => .ret (x.1, .emsg x.2))
  | .data => ((Data.readData).bind fun x => .ret (x.1, .data x.2))
  | .colr => ((Colr.readData env.colr).bind fun x => .ret (x.1, .colr x.2))
  | .pssh => ((Pssh.readData env.pssh).bind fun x => .ret (x.1, .pssh x.2))
  | .ftyp => ((Ftyp.readData).bind fun x => .ret (x.1, .ftyp x.2))
  | .metaBox => ((Meta.readData).bind fun x => .ret (x.1, .metaBox x.2))
  | .opaq => ((Opaque.readData).bind fun x => .ret (x.1, .opaq x.2))
  | .esds => ((Esds.readData env.esds).bind fun x => .ret (x.1, .esds x.2))
  | .sgpd => ((Sgpd.readData env.sgpd).bind fun x => .ret (x.1, .sgpd x.2))
  | .empty => .ret (0, .empty)

/-- The registrations of `register_box_map` (src/box_types.cpp:14-135), in order: type, class, versions
(120 entries). -/
def boxTable : List (BoxType × Kind × List Byte) := [
  (⟨0x62#8, 0x74#8, 0x72#8, 0x74#8⟩, .btrt, []),
  (⟨0x63#8, 0x6f#8, 0x36#8, 0x34#8⟩, .co64, [0#8]),
  (⟨0x63#8, 0x6f#8, 0x6c#8, 0x72#8⟩, .colr, []),
  (⟨0x63#8, 0x74#8, 0x74#8, 0x73#8⟩, .ctts, [0#8, 1#8]),
  (⟨0x64#8, 0x61#8, 0x74#8, 0x61#8⟩, .data, []),
  (⟨0x64#8, 0x69#8, 0x6e#8, 0x66#8⟩, .empty, []),
  (⟨0x64#8, 0x4f#8, 0x70#8, 0x73#8⟩, .dOps, []),
  (⟨0x64#8, 0x72#8, 0x65#8, 0x66#8⟩, .dref, [0#8]),
  (⟨0x65#8, 0x64#8, 0x74#8, 0x73#8⟩, .empty, []),
  (⟨0x65#8, 0x6c#8, 0x73#8, 0x74#8⟩, .elst, [0#8, 1#8]),
  (⟨0x65#8, 0x6d#8, 0x73#8, 0x67#8⟩, .emsg, [0#8, 1#8]),
  (⟨0x65#8, 0x73#8, 0x64#8, 0x73#8⟩, .esds, [0#8]),
  (⟨0x66#8, 0x69#8, 0x65#8, 0x6c#8⟩, .fiel, []),
  (⟨0x66#8, 0x72#8, 0x65#8, 0x65#8⟩, .opaq, []),
  (⟨0x66#8, 0x74#8, 0x79#8, 0x70#8⟩, .ftyp, []),
  (⟨0x68#8, 0x64#8, 0x6c#8, 0x72#8⟩, .hdlr, [0#8]),
  (⟨0x69#8, 0x6c#8, 0x73#8, 0x74#8⟩, .empty, []),
  (⟨0x69#8, 0x6f#8, 0x64#8, 0x73#8⟩, .iods, [0#8]),
  (⟨0x6d#8, 0x64#8, 0x61#8, 0x74#8⟩, .opaq, []),
  (⟨0x6d#8, 0x64#8, 0x68#8, 0x64#8⟩, .mdhd, [0#8, 1#8]),
  (⟨0x6d#8, 0x64#8, 0x69#8, 0x61#8⟩, .empty, []),
  (⟨0x6d#8, 0x65#8, 0x68#8, 0x64#8⟩, .mehd, [0#8, 1#8]),
  (⟨0x6d#8, 0x65#8, 0x74#8, 0x61#8⟩, .metaBox, [0#8]),
  (⟨0x6d#8, 0x66#8, 0x68#8, 0x64#8⟩, .mfhd, [0#8]),
  (⟨0x6d#8, 0x66#8, 0x72#8, 0x61#8⟩, .empty, []),
  (⟨0x6d#8, 0x66#8, 0x72#8, 0x6f#8⟩, .mfro, [0#8]),
  (⟨0x6d#8, 0x69#8, 0x6e#8, 0x66#8⟩, .empty, []),
  (⟨0x6d#8, 0x6f#8, 0x6f#8, 0x66#8⟩, .empty, []),
  (⟨0x6d#8, 0x6f#8, 0x6f#8, 0x76#8⟩, .empty, []),
  (⟨0x6d#8, 0x76#8, 0x65#8, 0x78#8⟩, .empty, []),
  (⟨0x6d#8, 0x76#8, 0x68#8, 0x64#8⟩, .mvhd, [0#8, 1#8]),
  (⟨0x70#8, 0x73#8, 0x73#8, 0x68#8⟩, .pssh, [0#8, 1#8]),
  (⟨0x73#8, 0x62#8, 0x67#8, 0x70#8⟩, .sbgp, [0#8, 1#8]),
  (⟨0x73#8, 0x63#8, 0x68#8, 0x69#8⟩, .empty, []),
  (⟨0x73#8, 0x64#8, 0x74#8, 0x70#8⟩, .sdtp, [0#8]),
  (⟨0x73#8, 0x67#8, 0x70#8, 0x64#8⟩, .sgpd, [1#8, 2#8]),
  (⟨0x73#8, 0x69#8, 0x64#8, 0x78#8⟩, .sidx, [0#8, 1#8]),
  (⟨0x73#8, 0x69#8, 0x6e#8, 0x66#8⟩, .empty, []),
  (⟨0x73#8, 0x6b#8, 0x69#8, 0x70#8⟩, .opaq, []),
  (⟨0x73#8, 0x6d#8, 0x68#8, 0x64#8⟩, .smhd, [0#8]),
  (⟨0x73#8, 0x74#8, 0x62#8, 0x6c#8⟩, .empty, []),
  (⟨0x73#8, 0x74#8, 0x63#8, 0x6f#8⟩, .stco, []),
  (⟨0x73#8, 0x74#8, 0x73#8, 0x63#8⟩, .stsc, [0#8]),
  (⟨0x73#8, 0x74#8, 0x73#8, 0x64#8⟩, .stsd, [0#8]),
  (⟨0x73#8, 0x74#8, 0x73#8, 0x73#8⟩, .stss, [0#8]),
  (⟨0x73#8, 0x74#8, 0x73#8, 0x7a#8⟩, .stsz, [0#8]),
  (⟨0x73#8, 0x74#8, 0x74#8, 0x73#8⟩, .stts, [0#8]),
  (⟨0x73#8, 0x74#8, 0x79#8, 0x70#8⟩, .ftyp, []),
  (⟨0x74#8, 0x66#8, 0x64#8, 0x74#8⟩, .tfdt, [0#8, 1#8]),
  (⟨0x74#8, 0x66#8, 0x68#8, 0x64#8⟩, .tfhd, [0#8]),
  (⟨0x74#8, 0x66#8, 0x72#8, 0x61#8⟩, .tfra, [0#8, 1#8]),
  (⟨0x74#8, 0x6b#8, 0x68#8, 0x64#8⟩, .tkhd, [0#8, 1#8]),
  (⟨0x74#8, 0x72#8, 0x61#8, 0x66#8⟩, .empty, []),
  (⟨0x74#8, 0x72#8, 0x61#8, 0x6b#8⟩, .empty, []),
  (⟨0x74#8, 0x72#8, 0x65#8, 0x78#8⟩, .trex, [0#8]),
  (⟨0x74#8, 0x72#8, 0x75#8, 0x6e#8⟩, .trun, [0#8, 1#8]),
  (⟨0x75#8, 0x64#8, 0x74#8, 0x61#8⟩, .empty, []),
  (⟨0x76#8, 0x6d#8, 0x68#8, 0x64#8⟩, .vmhd, [0#8]),
  (⟨0x75#8, 0x72#8, 0x6c#8, 0x20#8⟩, .url, [0#8]),
  (⟨0x75#8, 0x72#8, 0x6e#8, 0x20#8⟩, .urn, [0#8]),
  (⟨0x77#8, 0x61#8, 0x76#8, 0x65#8⟩, .empty, [0#8]),
  (⟨0x61#8, 0x76#8, 0x63#8, 0x31#8⟩, .visual, [0#8]),
  (⟨0x65#8, 0x6e#8, 0x63#8, 0x76#8⟩, .visual, [0#8]),
  (⟨0x76#8, 0x70#8, 0x30#8, 0x38#8⟩, .visual, [0#8]),
  (⟨0x76#8, 0x70#8, 0x30#8, 0x39#8⟩, .visual, [0#8]),
  (⟨0x76#8, 0x70#8, 0x31#8, 0x30#8⟩, .visual, [0#8]),
  (⟨0x61#8, 0x76#8, 0x30#8, 0x31#8⟩, .visual, [0#8]),
  (⟨0x6d#8, 0x70#8, 0x34#8, 0x61#8⟩, .audio, [0#8]),
  (⟨0x65#8, 0x6e#8, 0x63#8, 0x61#8⟩, .audio, [0#8]),
  (⟨0x4f#8, 0x70#8, 0x75#8, 0x73#8⟩, .audio, [0#8]),
  (⟨0x61#8, 0x76#8, 0x63#8, 0x43#8⟩, .avcC, [0#8]),
  (⟨0x76#8, 0x70#8, 0x63#8, 0x43#8⟩, .vpcC, [1#8, 0#8]),
  (⟨0x61#8, 0x76#8, 0x31#8, 0x43#8⟩, .av1C, []),
  (⟨0x70#8, 0x61#8, 0x73#8, 0x70#8⟩, .pasp, [0#8]),
  (⟨0x2d#8, 0x2d#8, 0x2d#8, 0x2d#8⟩, .empty, []),
  (⟨0x61#8, 0x41#8, 0x52#8, 0x54#8⟩, .empty, []),
  (⟨0x61#8, 0x6b#8, 0x49#8, 0x44#8⟩, .empty, []),
  (⟨0x61#8, 0x70#8, 0x49#8, 0x44#8⟩, .empty, []),
  (⟨0x61#8, 0x74#8, 0x49#8, 0x44#8⟩, .empty, []),
  (⟨0x63#8, 0x6d#8, 0x49#8, 0x44#8⟩, .empty, []),
  (⟨0x63#8, 0x6e#8, 0x49#8, 0x44#8⟩, .empty, []),
  (⟨0x63#8, 0x6f#8, 0x76#8, 0x72#8⟩, .empty, []),
  (⟨0x63#8, 0x70#8, 0x69#8, 0x6c#8⟩, .empty, []),
  (⟨0x63#8, 0x70#8, 0x72#8, 0x74#8⟩, .empty, []),
  (⟨0x64#8, 0x65#8, 0x73#8, 0x63#8⟩, .empty, []),
  (⟨0x64#8, 0x69#8, 0x73#8, 0x6b#8⟩, .empty, []),
  (⟨0x65#8, 0x67#8, 0x69#8, 0x64#8⟩, .empty, []),
  (⟨0x67#8, 0x65#8, 0x49#8, 0x44#8⟩, .empty, []),
  (⟨0x67#8, 0x6e#8, 0x72#8, 0x65#8⟩, .empty, []),
  (⟨0x70#8, 0x63#8, 0x73#8, 0x74#8⟩, .empty, []),
  (⟨0x70#8, 0x67#8, 0x61#8, 0x70#8⟩, .empty, []),
  (⟨0x70#8, 0x6c#8, 0x49#8, 0x44#8⟩, .empty, []),
  (⟨0x70#8, 0x75#8, 0x72#8, 0x64#8⟩, .empty, []),
  (⟨0x70#8, 0x75#8, 0x72#8, 0x6c#8⟩, .empty, []),
  (⟨0x72#8, 0x74#8, 0x6e#8, 0x67#8⟩, .empty, []),
  (⟨0x73#8, 0x66#8, 0x49#8, 0x44#8⟩, .empty, []),
  (⟨0x73#8, 0x6f#8, 0x61#8, 0x61#8⟩, .empty, []),
  (⟨0x73#8, 0x6f#8, 0x61#8, 0x6c#8⟩, .empty, []),
  (⟨0x73#8, 0x6f#8, 0x61#8, 0x72#8⟩, .empty, []),
  (⟨0x73#8, 0x6f#8, 0x63#8, 0x6f#8⟩, .empty, []),
  (⟨0x73#8, 0x6f#8, 0x6e#8, 0x6d#8⟩, .empty, []),
  (⟨0x73#8, 0x6f#8, 0x73#8, 0x6e#8⟩, .empty, []),
  (⟨0x73#8, 0x74#8, 0x69#8, 0x6b#8⟩, .empty, []),
  (⟨0x74#8, 0x6d#8, 0x70#8, 0x6f#8⟩, .empty, []),
  (⟨0x74#8, 0x72#8, 0x6b#8, 0x6e#8⟩, .empty, []),
  (⟨0x74#8, 0x76#8, 0x65#8, 0x6e#8⟩, .empty, []),
  (⟨0x74#8, 0x76#8, 0x65#8, 0x73#8⟩, .empty, []),
  (⟨0x74#8, 0x76#8, 0x6e#8, 0x6e#8⟩, .empty, []),
  (⟨0x74#8, 0x76#8, 0x73#8, 0x68#8⟩, .empty, []),
  (⟨0x74#8, 0x76#8, 0x73#8, 0x6e#8⟩, .empty, []),
  (⟨0xa9#8, 0x41#8, 0x52#8, 0x54#8⟩, .empty, []),
  (⟨0xa9#8, 0x61#8, 0x6c#8, 0x62#8⟩, .empty, []),
  (⟨0xa9#8, 0x63#8, 0x6d#8, 0x74#8⟩, .empty, []),
  (⟨0xa9#8, 0x63#8, 0x6f#8, 0x6d#8⟩, .empty, []),
  (⟨0xa9#8, 0x64#8, 0x61#8, 0x79#8⟩, .empty, []),
  (⟨0xa9#8, 0x67#8, 0x65#8, 0x6e#8⟩, .empty, []),
  (⟨0xa9#8, 0x67#8, 0x72#8, 0x70#8⟩, .empty, []),
  (⟨0xa9#8, 0x6e#8, 0x61#8, 0x6d#8⟩, .empty, []),
  (⟨0xa9#8, 0x74#8, 0x6f#8, 0x6f#8⟩, .empty, []),
  (⟨0xa9#8, 0x77#8, 0x72#8, 0x74#8⟩, .empty, [])]

/-- `register_box_map` (src/box_types.cpp:13-136). -/
def register_box_map (m : BoxMap Kind) : BoxMap Kind :=
  boxTable.foldl (fun m e => m.addBoxDef e.2.1 e.1 e.2.2) m

/-- The map of a `SimpleReader` (src/reader/reader.cpp:23-24). -/
def stdBoxMap : BoxMap Kind := register_box_map BoxMap.empty

/-- `Unsupported` boxes carry this type (src/box/unsupported.cpp:12-18). -/
def box_type_unsupported : BoxType := fourcc "unsu"

end Mp4
