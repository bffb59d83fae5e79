import Verif.Model.BoxType

/-! # `src/box_map.cpp` -/

namespace Mp4

/-- `BoxDef` (include/shiguredo/mp4/box_map.hpp:24-29); `κ` stands for the class a factory creates. -/
structure BoxDef (κ : Type) where
  factory : κ
  versions : List Byte
  deriving Repr, DecidableEq

/-- `std::map<BoxType, unique_ptr<BoxDef>>` as an association list with unique keys. -/
structure BoxMap (κ : Type) where
  entries : List (BoxType × BoxDef κ)

/-- What `getBoxInstance` creates: an instance of a registered class, with the type it carries, or an
`Unsupported` box. -/
inductive Instance (κ : Type) where
  | unsupported
  | known (factory : κ) (type : BoxType)
  deriving Repr, DecidableEq

namespace BoxMap
variable {κ : Type}

def empty : BoxMap κ := ⟨[]⟩

/-- `m_map.find(type)` -/
def find (m : BoxMap κ) (t : BoxType) : Option (BoxDef κ) :=
  (m.entries.find? (fun e => e.1 = t)).map (·.2)

/-- `BoxMap::addBoxDef` (src/box_map.cpp:22-24): `m_map[box_type] = ...` replaces. -/
def addBoxDef (m : BoxMap κ) (factory : κ) (t : BoxType) (versions : List Byte) : BoxMap κ :=
  ⟨(t, ⟨factory, versions⟩) :: m.entries.filter (fun e => !(e.1 = t))⟩

/-- `BoxMap::getBoxInstance` (src/box_map.cpp:26-41): `AnyTypeBox`es get the requested type; every other registered class
carries the type it is registered under by its own constructor. -/
def getBoxInstance (m : BoxMap κ) (t : BoxType) : Instance κ :=
  match m.find t with
  | none => .unsupported
  | some d => .known d.factory t

/-- `BoxMap::isSupported` (src/box_map.cpp:49-51). -/
def isSupported (m : BoxMap κ) (t : BoxType) : Bool := (m.find t).isSome

/-- `BoxMap::getSupportedVersions` (src/box_map.cpp:53-59). -/
def getSupportedVersions (m : BoxMap κ) (t : BoxType) : Except Err (List Byte) :=
  match m.find t with
  | none => .error (.exc "BoxMap::getSupportedVersions(): not found")
  | some d => .ok d.versions

/-- `BoxMap::isSupportedVersion` (src/box_map.cpp:61-71). -/
def isSupportedVersion (m : BoxMap κ) (t : BoxType) (ver : Byte) : Bool :=
  match m.find t with
  | none => false
  | some d => if d.versions.isEmpty then true else d.versions.any (fun v => ver == v)

end BoxMap
end Mp4
