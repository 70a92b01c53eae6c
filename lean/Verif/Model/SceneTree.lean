import Verif.Model.Fs
/-
Model of /repo/src/lib/io/io_scene_tree.cpp. tinyxml2 is represented by the tree of elements it makes of the document;
`dbl` and `uns` are `QueryDoubleText` and `QueryUnsignedText` (none for any error code). Dereferencing the null pointer
returned for a missing element or attribute is undefined behaviour. Doubles are exact rationals.
-/
namespace City

/-- `tinyxml2::XMLElement`. -/
inductive Elem where
  | mk (tag : Text) (text : Text) (attrs : List (Text × Text)) (children : List Elem)

namespace Elem

/-- The name of the element. -/
def tag : Elem → Text
  | mk t _ _ _ => t

/-- The attributes. -/
def attrs : Elem → List (Text × Text)
  | mk _ _ a _ => a

/-- The child elements, in document order. -/
def children : Elem → List Elem
  | mk _ _ _ c => c

end Elem

namespace SceneTree

/-- `FirstChildElement(name)` followed by a dereference. -/
def first (cs : List Elem) (tag : Text) : Out Elem :=
  match cs.find? fun e => e.tag == tag with
  | some e => .ok e
  | none => .ub

/-- `Attribute("Id")` converted to `std::string`: a null pointer is undefined. -/
def attrId (e : Elem) : Out Text :=
  match e.attrs.find? fun a => a.1 == "Id".toList with
  | some a => .ok a.2
  | none => .ub

/-- The element `Chantier_Bati3D`, the start of all the queries. -/
def root (doc : List Elem) : Out Elem := first doc "Chantier_Bati3D".toList

/-- One `QueryDoubleText`, with the exception of io_scene_tree.cpp:34-51 and 64-72. -/
def query (dbl : Elem → Option ℚ) (cs : List Elem) (tag : Text) : Out ℚ := do
  let e ← first cs tag
  match dbl e with
  | some q => .ok q
  | none => .thrown .runtimeError

/-- `SceneTreeHandler::bbox`: io_scene_tree.cpp:23-54; xmin, xmax, ymin, ymax, zmin, zmax. -/
def bbox (dbl : Elem → Option ℚ) (doc : List Elem) : Out (ℚ × ℚ × ℚ × ℚ × ℚ × ℚ) := do
  let r ← root doc
  let b ← first r.children "Bbox".toList
  let x0 ← query dbl b.children "Xmin".toList
  let x1 ← query dbl b.children "Xmax".toList
  let y0 ← query dbl b.children "Ymin".toList
  let y1 ← query dbl b.children "Ymax".toList
  let z0 ← query dbl b.children "Zmin".toList
  let z1 ← query dbl b.children "Zmax".toList
  .ok (x0, x1, y0, y1, z0, z1)

/-- `SceneTreeHandler::pivot`: io_scene_tree.cpp:55-83. -/
def pivot (dbl : Elem → Option ℚ) (doc : List Elem) : Out (V3 ℚ) := do
  let r ← root doc
  match r.children.find? fun e => e.tag == "Pivot".toList with
  | some p => do
    let x ← query dbl p.children "offset_x".toList
    let y ← query dbl p.children "offset_y".toList
    let z ← query dbl p.children "offset_z".toList
    .ok ⟨x, y, z⟩
  | none => do
    let b ← bbox dbl doc
    .ok ⟨(b.2.1 + b.1) / 2, (b.2.2.2.1 + b.2.2.1) / 2, (b.2.2.2.2.2 + b.2.2.2.2.1) / 2⟩

/-- `SceneTreeHandler::epsg_index`: io_scene_tree.cpp:84-91; the cast keeps 16 bits. -/
def epsg (uns : Elem → Option Nat) (doc : List Elem) : Out Nat := do
  let r ← root doc
  let e ← first r.children "Code_ESPG_horizontal".toList
  .ok ((uns e).getD 2154 % 65536)

/-- `SceneTreeHandler::building_ids`: io_scene_tree.cpp:92-105. -/
def buildingIds (doc : List Elem) : Out (List Text) := do
  let r ← root doc
  let c ← first r.children "CityModel".toList
  Out.mapM attrId (c.children.filter fun e => e.tag == "Building".toList)

/-- `SceneTreeHandler::terrain_id`: io_scene_tree.cpp:106-111. -/
def terrainId (doc : List Elem) : Out Text := do
  let r ← root doc
  let c ← first r.children "CityModel".toList
  let t ← first c.children "TINRelief".toList
  attrId t

/-- `SceneTreeHandler::SceneTreeHandler`: io_scene_tree.cpp:11-18; `xml` is `LoadFile` on the content of a file. -/
def construct (xml : Text → Option (List Elem)) (p : Path) (fs : Fs) : Out (List Elem) :=
  match fs p with
  | some (.file t) =>
    match xml t with
    | some d => .ok d
    | none => .thrown .runtimeError
  | _ => .thrown .runtimeError

end SceneTree
end City
