import Verif.Model.Box
import Verif.Spec.LayoutFixed
import Verif.Spec.LayoutVersioned
import Verif.Spec.LayoutTables
import Verif.Spec.LayoutFragments
import Verif.Spec.LayoutCodec
import Verif.Spec.LayoutSampleEntries
import Verif.Spec.LayoutStrings
import Verif.Spec.LayoutEsds

/-! # File format of the payload of every box -/

namespace Mp4

/-- File format of the payload of a box: see the `Layout` modules. -/
def Layout.box : BoxData → List Bool
  | .btrt b => Layout.btrt b
  | .pasp b => Layout.pasp b
  | .fiel b => Layout.fiel b
  | .smhd b => Layout.smhd b
  | .vmhd b => Layout.vmhd b
  | .mfhd b => Layout.mfhd b
  | .mfro b => Layout.mfro b
  | .dref b => Layout.dref b
  | .stsd b => Layout.stsd b
  | .trex b => Layout.trex b
  | .iods b => Layout.iods b
  | .mvhd b => Layout.mvhd b
  | .tkhd b => Layout.tkhd b
  | .mdhd b => Layout.mdhd b
  | .mehd b => Layout.mehd b
  | .tfdt b => Layout.tfdt b
  | .elst b => Layout.elst b
  | .sidx b => Layout.sidx b
  | .stts b => Layout.stts b
  | .ctts b => Layout.ctts b
  | .stsc b => Layout.stsc b
  | .stco b => Layout.stco b
  | .co64 b => Layout.co64 b
  | .stss b => Layout.stss b
  | .stsz b => Layout.stsz b
  | .sdtp b => Layout.sdtp b
  | .sbgp b => Layout.sbgp b
  | .tfhd b => Layout.tfhd b
  | .tfra b => Layout.tfra b
  | .trun b => Layout.trun b
  | .avcC b => Layout.avcC b
  | .av1C b => Layout.av1C b
  | .vpcC b => Layout.vpcC b
  | .dOps b => Layout.dOps b
  | .visual b => Layout.visualSampleEntry b
  | .audio b => Layout.audioSampleEntry b
  | .hdlr b => Layout.hdlr b
  | .url b => Layout.url b
  | .urn b => Layout.urn b
  | .emsg b => Layout.emsg b
  | .data b => Layout.data b
  | .colr b => Layout.colr b
  | .pssh b => Layout.pssh b
  | .ftyp b => Layout.ftyp b
  | .metaBox b => Layout.«meta» b
  | .opaq b => Layout.«opaque» b
  | .esds b => Layout.esds b
  | .sgpd b => Layout.sgpd b
  | .empty => []

end Mp4
