import Verif.Model.FacePrint
import Verif.Spec.Face
/-! Specification vocabulary for projected faces. -/
namespace City.Spec
open City
variable {K : Type} [Field K] [LinearOrder K]

/-- The point is on the plane. -/
def OnPlane (p : Plane K) (x y z : K) : Prop := p.a * x + p.b * y + p.c * z + p.d = 0

/-- Two planes with the same equation up to a positive factor: the same points, the same positive side. -/
def SamePlane (p q : Plane K) : Prop := ∃ k, 0 < k ∧ q = ⟨k * p.a, k * p.b, k * p.c, k * p.d⟩

/-- The plane has no normal: the three points it was made of are on a line. -/
def NoNormal (p : Plane K) : Prop := p.a = 0 ∧ p.b = 0 ∧ p.c = 0

/-- Twice the area enclosed by a closed polygon, positive when counterclockwise (shoelace formula: the sum over the edges). -/
def shoelace (p : Poly K) : K := ((boundary p).map fun e => e.1.x * e.2.y - e.2.x * e.1.y).sum

/-- Translation of points of the ground. -/
def shift (v w : V2 K) : V2 K := ⟨w.x + v.x, w.y + v.y⟩

/-- The interior of a polygon with holes. -/
def Interior (C : Cgal K) (q : Pwh K) (p : V2 K) : Prop :=
  C.side q.outer p = .bounded ∧ ∀ h ∈ q.holes, C.side h p = .unbounded

/-- The closed region of a polygon with holes. -/
def InRegion (C : Cgal K) (q : Pwh K) (p : V2 K) : Prop :=
  C.side q.outer p ≠ .unbounded ∧ ∀ h ∈ q.holes, C.side h p ≠ .bounded

/-- The vertical projection of a point. -/
def ground (p : V3 K) : V2 K := ⟨p.x, p.y⟩

/-- The points are on one line. -/
def Collinear3 (p q r : V3 K) : Prop := V3.cross (V3.sub q p) (V3.sub r p) = ⟨0, 0, 0⟩

/-- All the points are on some plane with a normal. -/
def Planar (pts : List (V3 K)) : Prop := ∃ n : Plane K, ¬ NoNormal n ∧ ∀ p ∈ pts, OnPlane n p.x p.y p.z

/-- The facet is seen from above as a line: its projections are on one line of the ground. -/
def SeenAsLine (pts : List (V3 K)) : Prop := ∃ a b c : K, (a ≠ 0 ∨ b ≠ 0) ∧ ∀ p ∈ pts, a * p.x + b * p.y + c = 0

end City.Spec
