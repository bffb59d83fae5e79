import Verif.BitIO.Objects

/-!
# Encoder and decoder programs

`W α` is a C++ function that writes through a `bitio::Writer*`; `R α` one that reads through a
`bitio::Reader*` and its `std::istream`.
-/

namespace Mp4

/-- A writing computation: the bits handed to `Writer::writeBit`, in order, and how it ended.  When it
ends with an exception the bits already written stay written. -/
structure W (α : Type) where
  out : List Bool
  res : Except Err α
  deriving DecidableEq

namespace W

def pure {α : Type} (a : α) : W α := ⟨[], .ok a⟩

def bind {α β : Type} (m : W α) (f : α → W β) : W β :=
  match m.res with
  | .ok a => ⟨m.out ++ (f a).out, (f a).res⟩
  | .error e => ⟨m.out, .error e⟩

instance : Monad W where
  pure := pure
  bind := bind

/-- `throw` -/
def throw {α : Type} (e : Err) : W α := ⟨[], .error e⟩

/-- `writer->writeBits(data, width)` (src/bitio/writer.cpp:31-38). -/
def writeBits (data : List Byte) (width : Nat) : W Unit := ⟨writeBitsSel data width, .ok ()⟩

/-- Execute on the concrete writer object. -/
def runC {α : Type} (m : W α) (w : Writer) : Except Err α × Writer := (m.res, w.push m.out)

end W

/-- A reading computation: a tree of the operations the code performs on the reader and its stream. -/
inductive R (α : Type) where
  | ret (a : α)
  | throw (e : Err)
  /-- `Reader::readBit` -/
  | bit (k : Bool → R α)
  /-- `stream::get_istream_offset_to_end(is)` (src/stream/stream.cpp:9-31) -/
  | toEnd (k : Nat → R α)
  /-- `is.tellg()` -/
  | tell (k : Nat → R α)
  /-- `is.seekg(o, beg)`; fails (sets failbit, the caller throws) past the end of a stringstream -/
  | seek (o : Nat) (k : R α)

namespace R

def bind {α β : Type} : R α → (α → R β) → R β
  | .ret a, f => f a
  | .throw e, _ => .throw e
  | .bit k, f => .bit fun b => (k b).bind f
  | .toEnd k, f => .toEnd fun n => (k n).bind f
  | .tell k, f => .tell fun n => (k n).bind f
  | .seek o k, f => .seek o (k.bind f)

instance : Monad R where
  pure := .ret
  bind := bind

/-- Execute on the concrete reader object. -/
def runC {α : Type} : R α → Reader → Except Err (α × Reader)
  | .ret a, r => .ok (a, r)
  | .throw e, _ => .error e
  | .bit k, r =>
    match r.readBit with
    | .error e => .error e
    | .ok (b, r) => (k b).runC r
  | .toEnd k, r => (k (r.is.data.length - r.is.pos)).runC r
  | .tell k, r => (k r.is.pos).runC r
  | .seek o k, r =>
    if o ≤ r.is.data.length then k.runC { r with is := { r.is with pos := o } }
    else .error (.exc "istream::seekg() failed")

/-- Execute on the abstract state: `d` is the whole content of the stream, the second argument the bits not yet
delivered. -/
def run {α : Type} : R α → List Byte → List Bool → Except Err (α × List Bool)
  | .ret a, _, s => .ok (a, s)
  | .throw e, _, _ => .error e
  | .bit k, d, s =>
    match s with
    | [] => .error .eof
    | b :: s => (k b).run d s
  | .toEnd k, d, s => (k (s.length / 8)).run d s
  | .tell k, d, s => (k (d.length - s.length / 8)).run d s
  | .seek o k, d, s =>
    if o ≤ d.length then k.run d (s.take (s.length % 8) ++ bytesBits (d.drop o))
    else .error (.exc "istream::seekg() failed")

/-- `Reader::readBit` as a program. -/
def readBit : R Bool := .bit .ret

/-- `get_istream_offset_to_end` as a program. -/
def offsetToEnd : R Nat := .toEnd .ret

def tellg : R Nat := .tell .ret

def seekg (o : Nat) : R Unit := .seek o (.ret ())

/-- The loop of `Reader::readBits` (src/bitio/reader.cpp:35-42). -/
def readBitList : Nat → R (List Bool)
  | 0 => .ret []
  | n + 1 => .bit fun b => (readBitList n).bind fun bs => .ret (b :: bs)

/-- `reader->readBits(&data, size)` (src/bitio/reader.cpp:29-43). -/
def readBits (size : Nat) : R (List Byte) := (readBitList size).bind fun bs => .ret (packBits bs)

end R

end Mp4
