import Verif.Model.Vec
import Mathlib.Data.List.Rotate
import Mathlib.Algebra.Order.Field.Basic
/-
The parts of CGAL used by /repo/src/lib/projection: /repo/src/include/geometry_definitions.h:22-48.
Exact kernel numbers are elements of an ordered field `K`. Points, planes, polygons, their area, orientation, equality and boxes are
written out as CGAL defines them; what CGAL decides about regions (`bounded_side`, `is_simple`, Boolean operations) and
the rounding `to_double` are the fields of `Cgal`, about which only stated laws are assumed.
-/
namespace City

/-- `Point_2`. -/
@[ext] structure V2 (K : Type) where
  x : K
  y : K
  deriving DecidableEq

/-- `Polygon`: the list of its vertices. -/
abbrev Poly (K : Type) := List (V2 K)

/-- `Polygon_with_holes`. -/
structure Pwh (K : Type) where
  outer : Poly K
  holes : List (Poly K)
  deriving DecidableEq

/-- `Plane_3`: the points with `a x + b y + c z + d = 0`. -/
@[ext] structure Plane (K : Type) where
  a : K
  b : K
  c : K
  d : K
  deriving DecidableEq

/-- `CGAL::Bounded_side`. -/
inductive Side
  | bounded | boundary | unbounded
  deriving DecidableEq

section
variable {K : Type} [Field K] [LinearOrder K]

/-- `CGAL::area(p, q, r)`, signed area of a triangle. -/
def triArea (p q r : V2 K) : K := ((q.x - p.x) * (r.y - p.y) - (r.x - p.x) * (q.y - p.y)) / 2

/-- The loop of CGAL's `polygon_area_2`: triangles of the first vertex with the consecutive pairs of the others. -/
def fanArea (p : V2 K) : Poly K → K
  | q :: r :: t => triArea p q r + fanArea p (r :: t)
  | _ => 0

/-- `Polygon_2::area`: signed, positive when counterclockwise. -/
def polyArea : Poly K → K
  | [] => 0
  | p :: t => fanArea p t

/-- `Polygon_2::reverse_orientation`: the first vertex stays, the others are reversed. -/
def reverseOrientation : Poly K → Poly K
  | [] => []
  | p :: t => p :: t.reverse

/-- `operator ==(Polygon_2, Polygon_2)`: the same cyclic list of vertices. -/
def polyEq (p q : Poly K) : Bool := decide (p ~r q)

/-- `CGAL::sign`. -/
def sgn (x : K) : Int := if 0 < x then 1 else if x < 0 then -1 else 0

/-- `operator ==(Plane_3, Plane_3)`: CGAL's `equal_plane`, built on `equal_direction`. -/
def planeEq (p q : Plane K) : Bool :=
  (sgn p.a == sgn q.a && sgn p.b == sgn q.b && sgn p.c == sgn q.c
    && decide (p.a * q.b - q.a * p.b = 0) && decide (p.a * q.c - q.a * p.c = 0) && decide (p.b * q.c - q.b * p.c = 0))
  && (if sgn p.a ≠ 0 then decide (p.a * q.d - q.a * p.d = 0)
      else if sgn p.b ≠ 0 then decide (p.b * q.d - q.b * p.d = 0)
      else decide (p.c * q.d - q.c * p.d = 0))

/-- `Plane_3(p, q, r)`: CGAL's `plane_from_pointsC3`. -/
def planeThrough (p q r : V3 K) : Plane K :=
  let a := (p.y - r.y) * (q.z - r.z) - (q.y - r.y) * (p.z - r.z)
  let b := (p.z - r.z) * (q.x - r.x) - (q.z - r.z) * (p.x - r.x)
  let c := (p.x - r.x) * (q.y - r.y) - (q.x - r.x) * (p.y - r.y)
  ⟨a, b, c, -a * r.x - b * r.y - c * r.z⟩

/-- `Bbox_2`; `none` is the empty box of the default constructor, (inf, inf, -inf, -inf). The enclosure of exact coordinates by
doubles is not modelled. -/
structure Box2 (K : Type) where
  xmin : K
  ymin : K
  xmax : K
  ymax : K
  deriving DecidableEq

/-- `Bbox_2::operator +`. -/
def Box2.union : Option (Box2 K) → Option (Box2 K) → Option (Box2 K)
  | none, b => b
  | a, none => a
  | some a, some b => some ⟨min a.xmin b.xmin, min a.ymin b.ymin, max a.xmax b.xmax, max a.ymax b.ymax⟩

/-- `Point_2::bbox`. -/
def Box2.point (p : V2 K) : Box2 K := ⟨p.x, p.y, p.x, p.y⟩

/-- `Polygon_2::bbox`: union of the boxes of the vertices. -/
def polyBox (p : Poly K) : Option (Box2 K) := p.foldl (fun b v => Box2.union b (some (Box2.point v))) none

/-- CGAL's `bounded_side`, `is_simple`, Boolean operations, polygon sets and `to_double`, as functions. -/
structure Cgal (K : Type) where
  /-- `Polygon_set`. -/
  PSet : Type
  /-- `to_double`. -/
  toDouble : K → K
  /-- `Polygon_2::is_simple`. -/
  simple : Poly K → Bool
  /-- `Polygon_2::bounded_side`. -/
  side : Poly K → V2 K → Side
  /-- `CGAL::intersection` of two polygons with holes. -/
  inter : Pwh K → Pwh K → List (Pwh K)
  /-- `Polygon_set()`. -/
  emptySet : PSet
  /-- `Polygon_set(polygon)`. -/
  ofPwh : Pwh K → PSet
  /-- `Polygon_set::join`. -/
  join : PSet → Pwh K → PSet
  /-- `Polygon_set::intersection`. -/
  meet : PSet → Pwh K → PSet
  /-- `Polygon_set::difference`. -/
  minus : PSet → Pwh K → PSet
  /-- `Polygon_set::is_empty`. -/
  isEmpty : PSet → Bool
  /-- `Polygon_set::polygons_with_holes`. -/
  pieces : PSet → List (Pwh K)

end
end City
