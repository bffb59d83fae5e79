import Verif.Model.Box

/-! # Which box types the library knows

The format's box types, by the class that represents them and the versions of it that are supported (no versions: the box
has none, or every one is accepted), grouped by what the boxes are for; the registrations of src/box_types.cpp:13-136 are
transcribed separately, in their own order, as `boxTable`. -/

namespace Mp4.Spec

/-- A box type whose first byte is the copyright sign 0xa9. -/
def copyright (s : String) : BoxType := { fourcc (" " ++ s) with b0 := 0xa9 }

/-- Boxes with nothing but children, of any version. -/
def containers : List String :=
  ["moov", "trak", "edts", "mdia", "minf", "dinf", "stbl", "udta", "mvex", "moof", "traf", "mfra", "sinf", "schi", "ilst"]

/-- Items of an `ilst`. -/
def ilstItems : List String :=
  ["----", "aART", "akID", "apID", "atID", "cmID", "cnID", "covr", "cpil", "cprt", "desc", "disk", "egid", "geID", "gnre",
   "pcst", "pgap", "plID", "purd", "purl", "rtng", "sfID", "soaa", "soal", "soar", "soco", "sonm", "sosn", "stik", "tmpo",
   "trkn", "tven", "tves", "tvnn", "tvsh", "tvsn"]

/-- Items of an `ilst` whose name begins with the copyright sign. -/
def ilstCopyright : List String :=
  ["ART", "alb", "cmt", "com", "day", "gen", "grp", "nam", "too", "wrt"]

/-- Class, supported versions, types. -/
def registry : List (Kind × List Byte × List BoxType) := [
  (.empty, [], containers.map fourcc ++ ilstItems.map fourcc ++ ilstCopyright.map copyright),
  (.empty, [0], [fourcc "wave"]),
  (.opaq, [], ["free", "skip", "mdat"].map fourcc),
  (.ftyp, [], ["ftyp", "styp"].map fourcc),
  (.visual, [0], ["avc1", "encv", "vp08", "vp09", "vp10", "av01"].map fourcc),
  (.audio, [0], ["mp4a", "enca", "Opus"].map fourcc),
  (.mvhd, [0, 1], [fourcc "mvhd"]), (.tkhd, [0, 1], [fourcc "tkhd"]), (.mdhd, [0, 1], [fourcc "mdhd"]),
  (.elst, [0, 1], [fourcc "elst"]), (.hdlr, [0], [fourcc "hdlr"]), (.vmhd, [0], [fourcc "vmhd"]),
  (.smhd, [0], [fourcc "smhd"]), (.dref, [0], [fourcc "dref"]), (.url, [0], [fourcc "url "]),
  (.urn, [0], [fourcc "urn "]), (.metaBox, [0], [fourcc "meta"]), (.iods, [0], [fourcc "iods"]),
  (.stsd, [0], [fourcc "stsd"]), (.stts, [0], [fourcc "stts"]), (.ctts, [0, 1], [fourcc "ctts"]),
  (.stss, [0], [fourcc "stss"]), (.stsc, [0], [fourcc "stsc"]), (.stsz, [0], [fourcc "stsz"]),
  (.stco, [], [fourcc "stco"]), (.co64, [0], [fourcc "co64"]), (.sdtp, [0], [fourcc "sdtp"]),
  (.sbgp, [0, 1], [fourcc "sbgp"]), (.sgpd, [1, 2], [fourcc "sgpd"]),
  (.avcC, [0], [fourcc "avcC"]), (.vpcC, [1, 0], [fourcc "vpcC"]), (.av1C, [], [fourcc "av1C"]),
  (.esds, [0], [fourcc "esds"]), (.dOps, [], [fourcc "dOps"]), (.btrt, [], [fourcc "btrt"]),
  (.pasp, [0], [fourcc "pasp"]), (.colr, [], [fourcc "colr"]), (.fiel, [], [fourcc "fiel"]),
  (.mehd, [0, 1], [fourcc "mehd"]), (.trex, [0], [fourcc "trex"]), (.mfhd, [0], [fourcc "mfhd"]),
  (.tfhd, [0], [fourcc "tfhd"]), (.tfdt, [0, 1], [fourcc "tfdt"]), (.trun, [0, 1], [fourcc "trun"]),
  (.sidx, [0, 1], [fourcc "sidx"]), (.tfra, [0, 1], [fourcc "tfra"]), (.mfro, [0], [fourcc "mfro"]),
  (.emsg, [0, 1], [fourcc "emsg"]), (.pssh, [0, 1], [fourcc "pssh"]), (.data, [], [fourcc "data"])]

/-- The class and the versions of a type, if it is a known one. -/
def registered (t : BoxType) : Option (Kind × List Byte) :=
  (registry.find? (fun g => g.2.2.contains t)).map (fun g => (g.1, g.2.1))

end Mp4.Spec
