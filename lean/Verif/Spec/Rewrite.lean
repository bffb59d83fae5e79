import Verif.Model.Box

/-! # Which boxes have only one encoding -/

namespace Mp4

/-- The classes all of whose fields can be encoded in only one way, and which keep everything that they read.  The others:
`url `, `urn `, `emsg`, `hdlr` have strings, which may be cut off by the end of the box instead of a NUL byte; `iods` and `esds`
have length fields of any number of bytes; `stsz` forgets the sample count when all samples have the same size; `meta` forgets
version and flags; an audio sample entry below a `wave` box keeps raw bytes only. -/
def Kind.oneForm (wave : Bool) : Kind → Bool
  | .url | .urn | .emsg | .hdlr | .iods | .esds | .stsz | .metaBox => false
  | .audio => !wave
  | _ => true

/-- The boxes, among those read, whose content determines their encoding up to the encoding's length. -/
def BoxData.LengthDetermines : BoxData → Prop
  | .stsz b => b.sample_size = 0
  | .hdlr b => b.pre_defined = 0
  | .audio b => b.under_wave = false
  | .esds _ => False
  | .metaBox _ => False
  | _ => True

end Mp4
