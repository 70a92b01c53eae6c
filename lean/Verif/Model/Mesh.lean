import Verif.Model.Bbox
import Verif.Model.Face
/-
Model of /repo/src/lib/shadow/mesh.cpp (except the 3DS conversions, see Mesh3ds.lean).
Coordinates are exact rationals (finite doubles). A mesh object is a value; the operands of `+=` are distinct
objects (`m += m` would insert a vector into itself: not modelled).
-/
namespace City

/-- Character strings. -/
abbrev Text := List Char

/-- `shadow::Mesh`: mesh.h, members name, points, faces, bounding_box. -/
@[ext] structure Mesh where
  name : Text
  points : List (V3 ℚ)
  faces : List Face
  bbox : Bbox
  deriving DecidableEq

namespace Mesh

/-- `Mesh::Mesh(void)`: mesh.cpp:19-20 (`bounding_box` is default constructed: empty). -/
def empty : Mesh := ⟨[], [], [], Bbox.empty⟩

/-- `Mesh::compute_bbox`: mesh.cpp:348-359. -/
def computeBbox (ps : List (V3 ℚ)) : Bbox := Bbox.ofPoints (ps.map V3.toDbl)

/-- `Mesh::Mesh(name, points, faces)`: mesh.cpp:97-101. -/
def make (name : Text) (ps : List (V3 ℚ)) (fs : List Face) : Mesh := ⟨name, ps, fs, computeBbox ps⟩

/-- `Mesh::Mesh(points, faces)`: mesh.cpp:103-107. -/
def makeAnon (ps : List (V3 ℚ)) (fs : List Face) : Mesh := make [] ps fs

/-- Copy assignment `Mesh::operator =(Mesh const&)`: mesh.cpp:121-128. Line 126 assigns the bounding box to
itself: the box of the left side is kept. -/
def assign (lhs other : Mesh) : Mesh := ⟨other.name, other.points, other.faces, lhs.bbox⟩

/-- `Mesh::is_empty`: mesh.cpp:179-182. -/
def isEmpty (m : Mesh) : Bool := m.points.isEmpty

/-- `Mesh::set_name`: mesh.cpp:185-189 (returns a copy, by the copy constructor, of the renamed object). -/
def setName (m : Mesh) (n : Text) : Mesh := { m with name := n }

/-- `Mesh::operator +=`: mesh.cpp:253-279. -/
def append (m other : Mesh) : Mesh :=
  if m.isEmpty then m.assign other
  else
    { name := m.name ++ ('_' :: other.name)
      bbox := m.bbox.union other.bbox
      points := m.points ++ other.points
      faces := m.faces ++ other.faces.map (fun f => f.offset m.points.length) }

/-- `operator +(Mesh, Mesh)`: mesh.cpp:361-364. -/
def add (a b : Mesh) : Mesh := a.append b

/-- `std::accumulate(begin, end, init, +)` as used on meshes (io_obj.cpp, io_3ds.cpp). -/
def sumFrom (init : Mesh) (ms : List Mesh) : Mesh := ms.foldl add init

/-- `std::inner_product` of faces with `logical_and`, `equal_to`: mesh.cpp:381-388 (each comparison is
evaluated; `accumulator && (a == b)` of `std::logical_and` does not skip the evaluation of the comparison). -/
def facesEq : List Face → List Face → Bool → Out Bool
  | f :: fs, g :: gs, acc => do
    let b ← Face.eq f g
    facesEq fs gs (acc && b)
  | _, _, acc => .ok acc

/-- `operator ==(Mesh, Mesh)`: mesh.cpp:366-392. -/
def eq (l r : Mesh) : Out Bool :=
  if l.points.length = r.points.length ∧ l.faces.length = r.faces.length then
    if l.points = r.points then facesEq l.faces r.faces true else .ok false
  else .ok false

/-- `operator !=(Mesh, Mesh)`: mesh.cpp:394-397. -/
def ne (l r : Mesh) : Out Bool := do
  let b ← eq l r
  .ok (!b)

end Mesh
end City
