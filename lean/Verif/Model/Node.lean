import Verif.Model.Surf
import Verif.Model.Text
import Mathlib.Analysis.SpecialFunctions.Trigonometric.Basic
/-
Model of the node of a scene, /repo/src/lib/scene/unode.cpp:26-163, and of its transformations,
/repo/src/lib/algorithms/unode_algorithms.cpp:30-82 and /repo/src/lib/algorithms/util_algorithms.cpp:9-45.

Simplifications: exact coordinates (in `K`, or `ℝ` where square roots, sines and cosines are needed); the surface given by CGAL to the constructors is a parameter.
-/
namespace City

/-- `CGAL::Bbox_3` of points with exact coordinates. -/
structure Box3 (K : Type) where
  lo : V3 K
  hi : V3 K
  deriving DecidableEq, Repr

namespace Box3
variable {K : Type} [LinearOrder K]
/-- `Point_3::bbox`. -/
def point (p : V3 K) : Box3 K := ⟨p, p⟩
/-- `Bbox_3::operator +=`; `none` is the box of no point (`Bbox_3()`). -/
def union : Option (Box3 K) → Box3 K → Box3 K
  | none, b => b
  | some a, b => ⟨⟨min a.lo.x b.lo.x, min a.lo.y b.lo.y, min a.lo.z b.lo.z⟩, ⟨max a.hi.x b.hi.x, max a.hi.y b.hi.y, max a.hi.z b.hi.z⟩⟩
/-- `CGAL::Polygon_mesh_processing::bbox`: the sum of the boxes of the vertices. -/
def ofPoints (ps : List (V3 K)) : Option (Box3 K) := ps.foldl (fun b p => some (union b (point p))) none
end Box3

/-- `CGAL::Aff_transformation_3`: the rows of the matrix and the translation. -/
structure Aff (K : Type) where
  r1 : V3 K
  r2 : V3 K
  r3 : V3 K
  t : V3 K

namespace Aff
variable {K : Type} [Ring K]
/-- `Affine_transformation_3(CGAL::IDENTITY)`: util_algorithms.cpp:39. -/
def one : Aff K := ⟨⟨1, 0, 0⟩, ⟨0, 1, 0⟩, ⟨0, 0, 1⟩, V3.zero⟩
/-- `Affine_transformation_3(CGAL::TRANSLATION, offset)`: unode_algorithms.cpp:46. -/
def translation (v : V3 K) : Aff K := ⟨⟨1, 0, 0⟩, ⟨0, 1, 0⟩, ⟨0, 0, 1⟩, v⟩
/-- `Affine_transformation_3(CGAL::SCALING, scale)`: unode_algorithms.cpp:52. -/
def scaling (s : K) : Aff K := ⟨⟨s, 0, 0⟩, ⟨0, s, 0⟩, ⟨0, 0, s⟩, V3.zero⟩
/-- `transform(point)`: unode_algorithms.cpp:38. -/
def apply (A : Aff K) (p : V3 K) : V3 K := ⟨V3.dot A.r1 p + A.t.x, V3.dot A.r2 p + A.t.y, V3.dot A.r3 p + A.t.z⟩
/-- A row times a matrix. -/
def row (r : V3 K) (B : Aff K) : V3 K := ⟨V3.dot r ⟨B.r1.x, B.r2.x, B.r3.x⟩, V3.dot r ⟨B.r1.y, B.r2.y, B.r3.y⟩, V3.dot r ⟨B.r1.z, B.r2.z, B.r3.z⟩⟩
/-- `operator *`: first the right side, then the left (util_algorithms.cpp:42). -/
def mul (A B : Aff K) : Aff K := ⟨row A.r1 B, row A.r2 B, row A.r3 B, A.apply B.t⟩
end Aff

/-- The matrix made of an angle and an axis: util_algorithms.cpp:19-32. -/
noncomputable def rotationMatrix (angle : ℝ) (axis : V3 ℝ) : Aff ℝ :=
  let u := V3.divs axis (Real.sqrt (V3.dot axis axis))
  let c := Real.cos angle
  let s := Real.sin angle
  ⟨⟨c + (1 - c) * u.x ^ 2, (1 - c) * u.x * u.y - s * u.z, (1 - c) * u.x * u.z + s * u.y⟩,
   ⟨(1 - c) * u.x * u.y + s * u.z, c + (1 - c) * u.y ^ 2, (1 - c) * u.y * u.z - s * u.x⟩,
   ⟨(1 - c) * u.x * u.z - s * u.y, (1 - c) * u.y * u.z + s * u.x, c + (1 - c) * u.z ^ 2⟩, V3.zero⟩

/-- `std::transform(..., std::begin(destination), ...)`: the values are written over the elements that are there; writing behind the last is undefined. -/
def writeOver {α : Type} : List α → List α → Out (List α)
  | d, [] => .ok d
  | [], _ :: _ => .ub
  | _ :: ds, v :: vs => do
    let r ← writeOver ds vs
    .ok (v :: r)

/-- `rotation_transform`: util_algorithms.cpp:9-45, over the entries of the map. The vector `rotations` is created empty (line 11). -/
noncomputable def rotationTransform (rots : List (ℝ × V3 ℝ)) : Out (Aff ℝ) := do
  let ms ← writeOver [] (rots.map fun r => rotationMatrix r.1 r.2)
  .ok (ms.foldl Aff.mul Aff.one)

/-- `UNode`: unode.h; `box = none` is the default box. -/
structure UNode (K : Type) where
  name : Text
  ref : V3 ℚ
  epsg : Nat
  surf : Surf K
  box : Option (Box3 K)

/-- `points_begin()` to `points_end()`: unode.cpp:256-263. -/
def Surf.points {K : Type} (S : Surf K) : List (V3 K) := S.vs.map S.pt

namespace UNode
variable {K : Type}

section
variable [LinearOrder K]
/-- The end of the constructors, unode.cpp:90-91, 107-108, 123-124: the box is computed unless the surface is empty (has no half-edge). -/
def make (name : Text) (ref : V3 ℚ) (epsg : Nat) (S : Surf K) : UNode K :=
  ⟨name, ref, epsg, S, if S.hs = [] then none else Box3.ofPoints S.points⟩
end

/-- `bbox()`: unode.cpp:160-163. -/
def bbox (n : UNode K) : Option (Box3 K) := n.box

section
variable [Ring K]
/-- `affine_transform`: unode_algorithms.cpp:30-42. -/
def affine (A : Aff K) (n : UNode K) : UNode K := { n with surf := n.surf.transform A.apply }
/-- `translate`: unode_algorithms.cpp:44-48. -/
def translate (v : V3 K) (n : UNode K) : UNode K := n.affine (Aff.translation v)
/-- `scale`: unode_algorithms.cpp:50-54. -/
def scale (s : K) (n : UNode K) : UNode K := n.affine (Aff.scaling s)
/-- `prune`: unode_algorithms.cpp:69-82, with the assignment of the node to itself. -/
def prune [DecidableEq K] (nrm : List (V3 K) → V3 K) (stitch : Surf K → Surf K) (n : UNode K) : Out (UNode K) := do
  let S ← n.surf.prune nrm stitch
  .ok { n with surf := S }
end

/-- `rotate(unode, rotations)`: unode_algorithms.cpp:63-67. -/
noncomputable def rotateMap (rots : List (ℝ × V3 ℝ)) (n : UNode ℝ) : Out (UNode ℝ) := do
  let A ← rotationTransform rots
  .ok (n.affine A)
/-- `rotate(unode, axis, angle)`: unode_algorithms.cpp:56-61. -/
noncomputable def rotate (axis : V3 ℝ) (angle : ℝ) (n : UNode ℝ) : Out (UNode ℝ) := rotateMap [(angle, axis)] n

/-- `set_face_ids`: unode.cpp:430-439. -/
def setFaceIds (n : UNode K) : UNode K := { n with surf := n.surf.setIds }

/-- Copy assignment: unode.cpp:139-148 (and the copy constructor, 28-34). -/
def assign (_ other : UNode K) : UNode K := ⟨other.name, other.ref, other.epsg, other.surf, other.box⟩
/-- `swap`: unode.cpp:129-138. -/
def swap (a b : UNode K) : UNode K × UNode K := (⟨b.name, b.ref, b.epsg, b.surf, b.box⟩, ⟨a.name, a.ref, a.epsg, a.surf, a.box⟩)

end UNode
end City
