import Verif.Spec.Brick
import Verif.Spec.Convert
/-!
Specification vocabulary for the heights of a building given as a mesh: it speaks of the corners of the faces of the mesh, not of prints or surfaces.
-/
namespace City.Spec
open City
variable {K : Type}

/-- The corners of the face with the vertices `p`. -/
def cornerPoints (pts : List (V3 K)) (p : List Nat) : List (V3 K) := p.filterMap fun i => pts[i]?

/-- The faces of the mesh with the points `pts` and the polygons `polys`. -/
def faceShapes (pts : List (V3 K)) (polys : List (List Nat)) : List (List (V3 K)) := polys.map (cornerPoints pts)

variable [Field K] [LinearOrder K]

/-- The face with the corners `l` is above the point `q` of the ground, at the height `z`: it is not vertical, `q` is inside its shadow, and the point at
the height `z` above `q` is in a plane through its corners. -/
def Over (C : Cgal K) (l : List (V3 K)) (q : V2 K) (z : K) : Prop :=
  ¬ SeenAsLine l ∧ C.side (l.map ground) q = .bounded ∧
    ∃ n : Plane K, n.c ≠ 0 ∧ (∀ v ∈ l, OnPlane n v.x v.y v.z) ∧ OnPlane n q.x q.y z

/-- `z` is the height of the highest of the faces above `q`. -/
def TopAt (C : Cgal K) (faces : List (List (V3 K))) (q : V2 K) (z : K) : Prop :=
  (∃ l ∈ faces, Over C l q z) ∧ ∀ l ∈ faces, ∀ z', Over C l q z' → z' ≤ z

/-- The function `height` is that of the building: over a point of the ground on no edge, the height of the highest face above it, and 0 if there is none. -/
def HeightsOf (C : Cgal K) (Gen : V2 K → Prop) (faces : List (List (V3 K))) (height : V2 K → Out K) : Prop :=
  ∀ q, Gen q → ((∃ l ∈ faces, ∃ z, Over C l q z) → ∃ z, height q = .ok z ∧ TopAt C faces q z) ∧
    ((¬ ∃ l ∈ faces, ∃ z, Over C l q z) → height q = .ok 0)

/-- The face is flat and not vertical: its corners are in a plane that is not vertical. -/
def FlatRoof (l : List (V3 K)) : Prop := ∃ n : Plane K, n.c ≠ 0 ∧ ∀ v ∈ l, OnPlane n v.x v.y v.z

/-- The three points are on a line when they are seen from above. -/
def InLine (a b c : V2 K) : Prop := (b.x - a.x) * (c.y - a.y) - (b.y - a.y) * (c.x - a.x) = 0

/-- `r` lists the corners of the shadow of the face in one direction or the other, from any of them on. -/
def ShadowRing (l : List (V3 K)) (r : Poly K) : Prop := r ~r l.map ground ∨ r ~r (l.map ground).reverse

/-- A face which is drawn as it is: flat, not vertical, without straight angle, and with a shadow that is a valid polygon for the library. -/
structure PlainRoof (C : Cgal K) (Ok : Pwh K → Prop) (l : List (V3 K)) : Prop where
  three : 3 ≤ l.length
  flat : FlatRoof l
  sharp : ∀ a b c t, (a :: b :: c :: t) ~r l.map ground → ¬ InLine a b c
  simple : ∀ r, ShadowRing l r → C.simple r = true
  ok : ∀ r, ShadowRing l r → 0 ≤ shoelace r → Ok ⟨r, []⟩

/-- The middle of every three corners in a row is inside the shadow of the face. -/
def MiddlesInside (C : Cgal K) (Gen : V2 K → Prop) (l : List (V3 K)) : Prop :=
  ∀ a b c t, (a :: b :: c :: t) ~r l.map ground →
    Gen ⟨(a.x + b.x + c.x) / 3, (a.y + b.y + c.y) / 3⟩ ∧ C.side (l.map ground) ⟨(a.x + b.x + c.x) / 3, (a.y + b.y + c.y) / 3⟩ = .bounded

/-- Where both faces are, the second is higher. -/
def Lower (C : Cgal K) (Gen : V2 K → Prop) (l m : List (V3 K)) : Prop :=
  ∀ q, Gen q → ∀ z z', Over C l q z → Over C m q z' → z < z'

end City.Spec
