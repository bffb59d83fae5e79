import Verif.BitIO.Funcs

/-! # `FullBox`: version and flags (`src/box.cpp`) -/

namespace Mp4

/-- `FullBox::m_version`, `FullBox::m_flags` (include/shiguredo/mp4/box.hpp:73-75). -/
structure FullBox where
  version : Byte
  f0 : Byte
  f1 : Byte
  f2 : Byte
  deriving DecidableEq, Repr

namespace FullBox

/-- `FullBox::getFlags` (src/box.cpp:125-130). -/
def getFlags (b : FullBox) : BitVec 32 :=
  let flag := b.f0.setWidth 32 <<< 16
  let flag := flag ||| (b.f1.setWidth 32 <<< 8)
  flag ||| b.f2.setWidth 32

/-- `FullBox::checkFlag` (src/box.cpp:136-138). -/
def checkFlag (b : FullBox) (flag : BitVec 32) : Bool := (b.getFlags &&& flag) != 0

/-- `FullBox::setFlags` (src/box.cpp:140-144). -/
def setFlags (b : FullBox) (flag : BitVec 32) : FullBox :=
  { b with
    f0 := ((flag >>> 16) &&& 0xff#32).setWidth 8
    f1 := ((flag >>> 8) &&& 0xff#32).setWidth 8
    f2 := (flag &&& 0xff#32).setWidth 8 }

/-- `FullBox::addFlag` (src/box.cpp:146-148). -/
def addFlag (b : FullBox) (flag : BitVec 32) : FullBox := b.setFlags (b.getFlags ||| flag)

/-- `FullBox::removeFlag` (src/box.cpp:150-152).  The code really uses exclusive or. -/
def removeFlag (b : FullBox) (flag : BitVec 32) : FullBox := b.setFlags (b.getFlags ^^^ flag)

/-- `FullBox::setVersion` (src/box.cpp:121-123). -/
def setVersion (b : FullBox) (v : Byte) : FullBox := { b with version := v }

/-- `FullBox::writeVersionAndFlag` (src/box.cpp:154-160). -/
def writeVersionAndFlag (b : FullBox) : W Nat := do
  let w ← write_uint b.version
  let w0 ← write_uint b.f0
  let w1 ← write_uint b.f1
  let w2 ← write_uint b.f2
  pure (w + w0 + w1 + w2)

/-- `FullBox::readVersionAndFlag` (src/box.cpp:162-168). -/
def readVersionAndFlag : R (Nat × FullBox) := do
  let (r, v) ← read_uint 8
  let (r0, f0) ← read_uint 8
  let (r1, f1) ← read_uint 8
  let (r2, f2) ← read_uint 8
  pure (r + r0 + r1 + r2, ⟨v, f0, f1, f2⟩)

end FullBox
end Mp4
