import Verif.Model.Raster
/-!
Specification of changes of the height of the origin (C105): every height is increased by the same number. Nothing here depends on the algorithms of the library.
-/
namespace City.Spec
open City

namespace Lift
variable {K : Type} [Field K] [LinearOrder K]

/-- A plane that is not vertical: its heights are increased by `w`. -/
def plane (w : K) (p : Plane K) : Plane K := ⟨p.a, p.b, p.c, p.d - p.c * w⟩

/-- A face print. -/
def face (w : K) (f : FacePrint K) : FacePrint K := ⟨f.id, f.border, plane w f.plane⟩

/-- A brick print. -/
def brick (w : K) (b : Brick K) : Brick K := ⟨b.bbox, b.faces.map (face w)⟩

/-- A point in space. -/
def pt3 (w : K) (p : V3 K) : V3 K := ⟨p.x, p.y, p.z + w⟩

/-- A facet of a surface. -/
def facet (w : K) (f : Facet K) : Facet K := ⟨f.id, f.pts.map (pt3 w)⟩

/-- The reference point that belongs to the new heights. -/
def ref (w : K) (r : V3 K) : V3 K := ⟨r.x, r.y, r.z - w⟩

/-- The same footprint, with heights relative to another reference point. -/
def foot (w : K) (f : FootPrint K) : FootPrint K := ⟨f.name, ref w f.ref, f.epsg, brick w f.brick⟩

end Lift
end City.Spec
