import Verif.Model.Reader

/-! # Objects in memory

`Model/Reader.lean` and `Model/Writer.lean` treat the boxes as values.  In the code they are objects on the heap which point to each other:
a `BoxInfo` has a pointer to its `Box` and pointers to the `BoxInfo`s below it, a `Box` has a pointer to its `BoxHeader`, and destructors
delete what they point to.  Here the programs run on a heap.  Access to an object that does not exist (any more) and deleting it are
undefined behaviour.

Simplification: strings, vectors and `shared_ptr`s inside the objects, which manage their memory themselves, are values. -/

namespace Mp4
namespace Mem

/-- Addresses. -/
scoped macro "Addr" : term => `(Nat)

/-- A `Box` object (include/shiguredo/mp4/box.hpp:23-61).  `data`: the members of the derived class, `none` for those of a box that was
constructed to be read into; `underWave`: `AudioSampleEntry::m_under_wave`. -/
structure BoxObj where
  type : BoxType
  underWave : Bool := false
  data : Option BoxData := none
  header : Option Addr := none

/-- A `BoxInfo` object (include/shiguredo/mp4/box_info.hpp:23-44). -/
structure InfoObj where
  box : Addr
  path : List BoxType
  leafs : List Addr := []

inductive Obj where
  | header (h : BoxHeader)
  | box (b : BoxObj)
  | info (i : InfoObj)

/-- The objects that exist, the next address (`new` never returns an address twice), and the members of the reader or writer that point to
objects: `SimpleReader::m_boxes`, `Writer::m_moov_box_info` (null or not; include/shiguredo/mp4/writer/writer.hpp:60) and `m_mvhd_box` (not
initialised or not; writer.hpp:61). -/
structure State where
  cell : Addr → Option Obj := fun _ => none
  next : Addr := 0
  boxes : List Addr := []
  moov : Option Addr := none
  mvhd : Option Addr := none

/-- A piece of program: `none` when its bound on the recursion is exceeded; otherwise a value or an exception, and the state afterwards. -/
def M (α : Type) := State → Option (Except Err α × State)

namespace M
def ok {α : Type} (a : α) : M α := fun s => some (.ok a, s)
def fail {α : Type} (e : Err) : M α := fun s => some (.error e, s)
def stuck {α : Type} : M α := fun _ => none
/-- One statement after the other; an exception ends the function. -/
def andThen {α β : Type} (m : M α) (k : α → M β) : M β := fun s =>
  match m s with
  | none => none
  | some (.error e, s') => some (.error e, s')
  | some (.ok a, s') => k a s'
instance : Monad M where
  pure := ok
  bind := andThen
end M

/-- `new`. -/
def new (o : Obj) : M Addr := fun s =>
  some (.ok s.next, { s with cell := fun x => if x = s.next then some o else s.cell x, next := s.next + 1 })

def dangling : Err := .ub "access to an object that does not exist"

/-- Access to a `BoxHeader`. -/
def header (a : Addr) : M BoxHeader := fun s =>
  match s.cell a with
  | some (.header h) => some (.ok h, s)
  | _ => some (.error dangling, s)

/-- Access to a `Box`. -/
def box (a : Addr) : M BoxObj := fun s =>
  match s.cell a with
  | some (.box b) => some (.ok b, s)
  | _ => some (.error dangling, s)

/-- Access to a `BoxInfo`. -/
def info (a : Addr) : M InfoObj := fun s =>
  match s.cell a with
  | some (.info i) => some (.ok i, s)
  | _ => some (.error dangling, s)

def State.set (s : State) (a : Addr) (o : Option Obj) : State := { s with cell := fun x => if x = a then o else s.cell x }

/-- Assignment to members of a `BoxHeader`. -/
def setHeader (a : Addr) (h : BoxHeader) : M Unit := M.andThen (header a) fun _ s => some (.ok (), s.set a (some (.header h)))

/-- Assignment to members of a `Box`. -/
def setBox (a : Addr) (b : BoxObj) : M Unit := M.andThen (box a) fun _ s => some (.ok (), s.set a (some (.box b)))

/-- Assignment to members of a `BoxInfo`. -/
def setInfo (a : Addr) (i : InfoObj) : M Unit := M.andThen (info a) fun _ s => some (.ok (), s.set a (some (.info i)))

/-- The memory is given back, after the destructor. -/
def free (a : Addr) : M Unit := fun s =>
  match s.cell a with
  | none => some (.error (.ub "deleted twice"), s)
  | some _ => some (.ok (), s.set a none)

/-- `BoxInfo::addLeaf` (src/box_info.cpp:52-54). -/
def addLeaf (a l : Addr) : M Unit := do
  let i ← info a
  setInfo a { i with leafs := i.leafs ++ [l] }

/-- `BoxInfo::getType` (src/box_info.cpp:91-93). -/
def getType (a : Addr) : M BoxType := do
  let i ← info a
  let b ← box i.box
  return b.type

/-- `AudioSampleEntry::setUnderWave(true)` for an `AudioSampleEntry`, nothing for the other classes (src/box_info.cpp:21-25). -/
def marked : BoxData → BoxData
  | .audio e => .audio (e.setUnderWave true)
  | d => d

/-- `AudioSampleEntry::setUnderWave(true)` on an object of any class (src/box_info.cpp:21-25): the flag of the object itself (`underWave`,
set for every class of boxes here, of which only `AudioSampleEntry` has it and looks at it) and the one among the members. -/
def BoxObj.mark (x : BoxObj) : BoxObj := { x with underWave := true, data := x.data.map marked }

/-- `new BoxInfo({.parent = parent, .box = b})` (src/box_info.cpp:16-31). -/
def newInfo (parent : Option Addr) (b : Addr) : M Addr := do
  let a ← new (.info { box := b, path := [] })
  match parent with
  | none => pure ()
  | some p =>
    let i ← info p
    setInfo a { box := b, path := i.path }
    addLeaf p a
    let t ← getType p
    if t = fourcc "wave" then
      let x ← box b
      setBox b x.mark
  let i ← info a
  let t ← getType a
  setInfo a { i with path := i.path ++ [t] }
  return a

/-- `Box::~Box` (src/box.cpp:26-30) and `delete`. -/
def deleteBox (b : Addr) : M Unit := do
  let x ← box b
  match x.header with
  | none => pure ()
  | some h => free h
  free b

/-- A range-based `for` loop. -/
def forEach (f : Addr → M Unit) : List Addr → M Unit
  | [] => pure ()
  | a :: l => do
    f a
    forEach f l

/-- A loop that collects results (`std::transform`). -/
def mapEach {α : Type} (f : Addr → M α) : List Addr → M (List α)
  | [] => pure []
  | a :: l => do
    let x ← f a
    let xs ← mapEach f l
    return x :: xs

/-- `BoxInfo::~BoxInfo` (src/box_info.cpp:33-38) and `delete`. -/
def deleteInfo : Nat → Addr → M Unit
  | 0, _ => M.stuck
  | fuel + 1, a => do
    let i ← info a
    forEach (deleteInfo fuel) i.leafs
    deleteBox i.box
    free a

/-- The header a box points to, if any (src/box.cpp:69-72). -/
def headerOf : Option Addr → M (Option BoxHeader)
  | none => pure none
  | some h => do
    let hd ← header h
    return some hd

/-- What `BoxInfo::toString` sees (src/box_info.cpp:56-67): the box with its header, the path, and the same for everything below. -/
def load : Nat → Addr → M Tree
  | 0, _ => M.stuck
  | fuel + 1, a => do
    let i ← info a
    let leafs ← mapEach (load fuel) i.leafs
    let b ← box i.box
    let hd ← headerOf b.header
    return .node ⟨b.type, b.data.getD .empty, hd⟩ i.path leafs

end Mem

namespace SimpleReader
open Mem

/-- `BoxMap::getBoxInstance` (src/box_map.cpp:26-47): the address of the object and its class.  It has the type of its class;
`setHeader` (src/box.cpp:60-62) makes it the owner of the header. -/
def getBoxInstanceM (sr : SimpleReader) (h : Addr) : M (Addr × Kind) := do
  let hd ← header h
  let k := sr.classOf hd.type
  let b ← new (.box { type := k.2 })
  let x ← box b
  setBox b { x with header := some h }
  return (b, k.1)

/-- `box->readData(ss)` (src/reader/reader.cpp:70).  Simplification: after an exception the members of the box are not known. -/
def readDataM (sr : SimpleReader) (offset : Nat) (b : Addr) (k : Kind) (ss : List Byte) : M Nat := do
  let x ← box b
  match (BoxData.readData (sr.env offset) x.type x.underWave k).runC (Reader.new ⟨ss, 0⟩) with
  | .error e => M.fail e
  | .ok ((rbits, data), _) => do
    setBox b { x with data := some data }
    return rbits

/-- `m_boxes.push_back(info)` (src/reader/reader.cpp:66-68). -/
def pushBoxM (parent : Option Addr) (a : Addr) : M Unit := fun s =>
  match parent with
  | none => some (.ok (), { s with boxes := s.boxes ++ [a] })
  | some _ => some (.ok (), s)

/-- The loops around `readBox`, as `readLoop`. -/
def readLoopM (readBox : Nat → M (Nat × Nat)) (limit : Nat) : Nat → Nat → Nat → M Nat
  | 0, _, _ => M.stuck
  | fuel + 1, done, pos =>
    if limit > done then do
      let r ← readBox pos
      readLoopM readBox limit fuel (u64 (done + r.1)) r.2
    else return pos

/-- `SimpleReader::readBox` behind the reading of the header (src/reader/reader.cpp:49-82) on the heap; `self` are the recursive calls. -/
def readBoxRestM (sr : SimpleReader) (self : Option Addr → Nat → M (Nat × Nat)) (fuel : Nat) (parent : Option Addr) (h : Addr) :
    M (Nat × Nat) := do
  let header ← header h
  if header.getDataSize > sub64 (sub64 sr.data.length header.offset) header.headerSize then
    M.fail (.exc "corrupt file? box data size is greater than remaining_size")
  else do
    let bk ← sr.getBoxInstanceM h
    let a ← newInfo parent bk.1
    pushBoxM parent a
    let rbits ← sr.readDataM header.offset bk.1 bk.2 (slice sr.data (header.offset + header.headerSize) header.getDataSize)
    if sr.file = false ∧ sr.data.length < header.offset + header.headerSize + rbits / 8 then
      M.fail (.exc "SimpleReader::readBox(): istream::seekg() failed")
    else do
      let pos' ← readLoopM (self (some a)) header.getDataSize fuel (rbits / 8) (header.offset + header.headerSize + rbits / 8)
      return (header.size, pos')

/-- `read_box_header` (src/box_header.cpp:32-67): the header is a new object, `new BoxHeader` being its last statement. -/
def readHeaderM (hd : Except Err BoxHeader) : M Addr :=
  match hd with
  | .error e => M.fail e
  | .ok hd => new (.header hd)

/-- The body of `SimpleReader::readBox` (src/reader/reader.cpp:47-82) on the heap. -/
def readBoxBodyM (sr : SimpleReader) (self : Option Addr → Nat → M (Nat × Nat)) (fuel : Nat) (parent : Option Addr) (pos : Nat) :
    M (Nat × Nat) := do
  let h ← readHeaderM (read_box_header ⟨sr.data, pos⟩)
  sr.readBoxRestM self fuel parent h

/-- `SimpleReader::readBox`: the returned size and the position of the stream. -/
def readBoxM (sr : SimpleReader) : Nat → Option Addr → Nat → M (Nat × Nat)
  | 0 => fun _ _ => M.stuck
  | fuel + 1 => fun parent pos => sr.readBoxBodyM (readBoxM sr fuel) fuel parent pos

/-- The printing of the boxes (src/reader/reader.cpp:42-44): the trees of which the texts are printed. -/
def printM (fuel : Nat) : M (List Tree) := fun s => mapEach (load fuel) s.boxes s

/-- `SimpleReader::read` (src/reader/reader.cpp:37-45): the trees of which the texts are printed. -/
def readM (sr : SimpleReader) (fuel : Nat) : M (List Tree) := do
  let _ ← readLoopM (sr.readBoxM fuel none) sr.data.length fuel 0 0
  printM fuel

/-- The same with the stream at `pos`. -/
def readFromM (sr : SimpleReader) (fuel pos : Nat) : M (List Tree) := do
  let _ ← readLoopM (sr.readBoxM fuel none) sr.data.length fuel 0 pos
  printM fuel

/-- `try`: what is thrown is caught. -/
def attempt {α : Type} (m : M α) : M (Except Err α) := fun s =>
  match m s with
  | none => none
  | some (r, s) => some (.ok r, s)

/-- A program that calls `read` several times and catches what it throws; `positions`: where the stream is at each call. -/
def readsM (sr : SimpleReader) (fuel : Nat) : (positions : List Nat) → M (List (Except Err (List Tree)))
  | [] => return []
  | pos :: ps => do
    let r ← attempt (sr.readFromM fuel pos)
    let rs ← readsM sr fuel ps
    return r :: rs

/-- `SimpleReader::~SimpleReader` (src/reader/reader.cpp:31-35). -/
def destroyM (fuel : Nat) : M Unit := fun s => forEach (deleteInfo fuel) s.boxes s

end SimpleReader
end Mp4
