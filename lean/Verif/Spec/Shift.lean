import Verif.Model.Raster
/-!
Specification of changes of the origin (C104): every horizontal coordinate is increased by the same vector. Nothing here depends on the algorithms of the library.
-/
namespace City.Spec
open City

namespace Shift
variable {K : Type} [Field K] [LinearOrder K]

/-- A point of the plane. -/
def pt (v p : V2 K) : V2 K := ⟨p.x + v.x, p.y + v.y⟩

/-- A polygon. -/
def poly (v : V2 K) (q : Poly K) : Poly K := q.map (pt v)

/-- A polygon with holes. -/
def pwh (v : V2 K) (q : Pwh K) : Pwh K := ⟨poly v q.outer, q.holes.map (poly v)⟩

/-- A plane: a point is on it when the point it came from was on the plane before. -/
def plane (v : V2 K) (p : Plane K) : Plane K := ⟨p.a, p.b, p.c, p.d - p.a * v.x - p.b * v.y⟩

/-- A face print. -/
def face (v : V2 K) (f : FacePrint K) : FacePrint K := ⟨f.id, pwh v f.border, plane v f.plane⟩

/-- A box. -/
def box (v : V2 K) (b : Box2 K) : Box2 K := ⟨b.xmin + v.x, b.ymin + v.y, b.xmax + v.x, b.ymax + v.y⟩

/-- A brick print. -/
def brick (v : V2 K) (b : Brick K) : Brick K := ⟨b.bbox.map (box v), b.faces.map (face v)⟩

/-- A point in space; the height stays. -/
def pt3 (v : V2 K) (p : V3 K) : V3 K := ⟨p.x + v.x, p.y + v.y, p.z⟩

/-- A facet of a surface. -/
def facet (v : V2 K) (f : Facet K) : Facet K := ⟨f.id, f.pts.map (pt3 v)⟩

/-- The reference point that belongs to the new coordinates. -/
def ref (v : V2 K) (r : V3 K) : V3 K := ⟨r.x - v.x, r.y - v.y, r.z⟩

/-- The same footprint, in coordinates relative to another reference point. -/
def foot (v : V2 K) (f : FootPrint K) : FootPrint K := ⟨f.name, ref v f.ref, f.epsg, brick v f.brick⟩

end Shift

/-- CGAL does not look at absolute positions: its answers for polygons moved by `v` are its answers for the polygons, moved by `v`. -/
structure Moves {K : Type} [Field K] [LinearOrder K] (C : Cgal K) (v : V2 K) where
  /-- A polygon set in the new coordinates. -/
  set : C.PSet → C.PSet
  simple : ∀ q, C.simple (Shift.poly v q) = C.simple q
  side : ∀ q p, C.side (Shift.poly v q) (Shift.pt v p) = C.side q p
  inter : ∀ q r, C.inter (Shift.pwh v q) (Shift.pwh v r) = (C.inter q r).map (Shift.pwh v)
  empty : set C.emptySet = C.emptySet
  single : ∀ q, C.ofPwh (Shift.pwh v q) = set (C.ofPwh q)
  join : ∀ s q, C.join (set s) (Shift.pwh v q) = set (C.join s q)
  meet : ∀ s q, C.meet (set s) (Shift.pwh v q) = set (C.meet s q)
  minus : ∀ s q, C.minus (set s) (Shift.pwh v q) = set (C.minus s q)
  isEmpty : ∀ s, C.isEmpty (set s) = C.isEmpty s
  pieces : ∀ s, C.pieces (set s) = (C.pieces s).map (Shift.pwh v)

end City.Spec
