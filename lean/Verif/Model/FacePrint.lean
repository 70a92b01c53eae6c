import Verif.Model.Poly
/-
Model of /repo/src/lib/projection/face_projection.cpp (heights, borders, export) and of /repo/src/lib/projection/utilities.cpp.
-/
namespace City

/-- `projection::FacePrint`: face_projection.h:61-63. -/
structure FacePrint (K : Type) where
  id : Nat
  border : Pwh K
  plane : Plane K
  deriving DecidableEq

/-- A facet of a surface, as the code walks through it: its identifier and the points of its vertices from `facet_begin()` on. -/
structure Facet (K : Type) where
  id : Nat
  pts : List (V3 K)
  deriving DecidableEq

section
variable {K : Type} [Field K] [LinearOrder K]

/-- `trace`: utilities.cpp:7-26. A facet of a CGAL surface has at least three vertices; otherwise `h->next()->next()` is the
first vertex again, which is not modelled (such facets do not exist). -/
def trace (f : Facet K) : Poly K × Plane K :=
  (f.pts.map fun p => ⟨p.x, p.y⟩,
    match f.pts with
    | p :: q :: r :: _ => planeThrough p q r
    | _ => ⟨0, 0, 0, 0⟩)

namespace FacePrint
variable (C : Cgal K)

/-- `FacePrint::FacePrint(Facet)`: face_projection.cpp:29-38. For a simple polygon `orientation()` is the sign of the area. -/
def ofFacet (f : Facet K) : FacePrint K :=
  let t := trace f
  ⟨f.id, ⟨if C.simple t.1 && decide (polyArea t.1 < 0) then reverseOrientation t.1 else t.1, []⟩, t.2⟩

/-- `get_plane_height(Point_2)`: face_projection.cpp:117-122. -/
def planeHeight (f : FacePrint K) (p : V2 K) : Out K :=
  if f.plane.c = 0 then .thrown .overflowError
  else .ok (C.toDouble ((-1 * f.plane.d - f.plane.a * p.x - f.plane.b * p.y) / f.plane.c))

/-- `std::numeric_limits<double>::epsilon()`. -/
def eps : K := 1 / 2 ^ 52

/-- `get_plane_height(InexactPoint_2)`: face_projection.cpp:123-129. Operations on doubles are exact here. -/
def planeHeightInexact (f : FacePrint K) (p : V2 K) : Out K :=
  if |C.toDouble f.plane.c| < eps then .thrown .overflowError
  else .ok ((-1 * C.toDouble f.plane.d - C.toDouble f.plane.a * p.x - C.toDouble f.plane.b * p.y) / C.toDouble f.plane.c)

/-- `area`: face_projection.cpp:186-197. -/
def area (f : FacePrint K) : K :=
  f.border.holes.foldl (fun s h => s - C.toDouble (polyArea h)) (C.toDouble (polyArea f.border.outer))

/-- `is_perpendicular`: face_projection.cpp:242-245. -/
def isPerpendicular (f : FacePrint K) : Bool := decide (f.plane.c = 0)

/-- `is_degenerate`: face_projection.cpp:235-241. -/
def isDegenerate (f : FacePrint K) : Bool :=
  f.isPerpendicular || (!f.border.holes.isEmpty && decide (|area C f| < eps))

/-- `is_empty`: face_projection.cpp:246-249. -/
def isEmpty (f : FacePrint K) : Bool := f.border.outer.isEmpty

/-- `contains(Point_2)`: face_projection.cpp:251-263. -/
def contains (f : FacePrint K) (p : V2 K) : Bool :=
  (C.side f.border.outer p != .unbounded) && f.border.holes.all fun h => C.side h p != .bounded

/-- `bool * double`. -/
def times (b : Bool) (z : K) : K := if b then z else 0

/-- `get_height(Point_2)`: face_projection.cpp:130-133: all the factors are computed. -/
def height (f : FacePrint K) (p : V2 K) : Out K := do
  let z ← planeHeight C f p
  .ok (times (!isDegenerate C f && contains C f p) z)

/-- `equal_border`: face_projection.cpp:203-218. -/
def equalBorder (f g : FacePrint K) : Bool :=
  f.border.holes.length == g.border.holes.length &&
    ((f.border.holes.zip g.border.holes).foldl (fun b hh => b && polyEq hh.1 hh.2) (polyEq f.border.outer g.border.outer))

/-- `operator ==`: face_projection.cpp:342-345; `equal_plane`: face_projection.cpp:219-222. -/
def eq (f g : FacePrint K) : Bool := equalBorder f g && planeEq f.plane g.plane

/-- `FacePrint::bbox`: face_projection.cpp:112-115: the box of the outer boundary. -/
def bbox (f : FacePrint K) : Option (Box2 K) := polyBox f.border.outer

end FacePrint

/-- `orthoprint`: utilities.cpp:27-53. -/
def orthoprint (C : Cgal K) (facets : List (Facet K)) : List (FacePrint K) :=
  (facets.map (FacePrint.ofFacet C)).filter fun f => !(f.isEmpty || f.isDegenerate C)

/-- `unpack`: utilities.cpp:55-73. -/
def unpack (C : Cgal K) (facets : List (FacePrint K)) (s : C.PSet) (id : Nat) (plane : Plane K) : List (FacePrint K) :=
  facets ++ (C.pieces s).map fun q => ⟨id, q, plane⟩

/-- `OGRLinearRing`: its points. -/
abbrev Ring2 (K : Type) := List (V2 K)

/-- `OGRLinearRing::closeRings`: the first point is appended unless it equals the last one. -/
def closeRing (r : Ring2 K) : Ring2 K :=
  match r with
  | [] => []
  | p :: _ => if r.getLast? = some p then r else r ++ [p]

/-- A feature of a vector layer: identifier, rings (the outer one first), plane coefficients. -/
structure Feature (K : Type) where
  id : Nat
  rings : List (Ring2 K)
  plane : Plane K
  deriving DecidableEq

/-- `to_ogr(Point_2)` and `to_ogr(Polygon)`: utilities.cpp:75-92. -/
def ringToOgr (C : Cgal K) (ref : V3 K) (p : Poly K) : Ring2 K :=
  closeRing (p.map fun v => ⟨C.toDouble (v.x + ref.x), C.toDouble (v.y + ref.y)⟩)

/-- `to_ogr(Polygon_with_holes)`: utilities.cpp:93-106. -/
def pwhToOgr (C : Cgal K) (ref : V3 K) (p : Pwh K) : List (Ring2 K) :=
  ringToOgr C ref p.outer :: p.holes.map (ringToOgr C ref)

/-- `FacePrint::to_ogr`: face_projection.cpp:270-291, without the labels. -/
def FacePrint.toOgr (C : Cgal K) (ref : V3 K) (f : FacePrint K) : Feature K :=
  ⟨f.id, pwhToOgr C ref f.border,
    ⟨C.toDouble f.plane.a, C.toDouble f.plane.b, C.toDouble f.plane.c, C.toDouble (f.plane.d + ref.z)⟩⟩

/-- `get_ogr_ring`: utilities.cpp:112-129: all the points but the last; of an empty ring, `size_t(0) - 1` vertices are
asked for, which throws length_error. -/
def ringFromOgr (r : Ring2 K) : Out (Poly K) :=
  if r = [] then .thrown .lengthError else .ok r.dropLast

/-- `get_ogr_polygon` and `FacePrint::FacePrint(OGRFeature*)`: utilities.cpp:130-145, face_projection.cpp:39-59, for a layer with the
five fields and a polygon geometry (a polygon without exterior ring is dereferenced as null). -/
def FacePrint.ofOgr (x : Feature K) : Out (FacePrint K) :=
  match x.rings with
  | [] => .ub
  | r :: rs => do
    let hs ← Out.mapM ringFromOgr rs
    let o ← ringFromOgr r
    .ok ⟨x.id, ⟨o, hs⟩, x.plane⟩

end
end City
