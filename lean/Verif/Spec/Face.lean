import Verif.Model.Face
import Mathlib.Data.List.Rotate
/-!
Specification vocabulary for faces: boundary cycles, polygons, convexity.
-/
namespace City.Spec
open City

/-- The directed edges of the closed polygon `a₀ → a₁ → ... → aₙ₋₁ → a₀`. -/
def boundary {α : Type} : List α → List (α × α)
  | [] => []
  | a :: t => (a :: t).zip (t ++ [a])

/-- The indexes of the face denote the points `vs` of the coordinate list, in order. -/
def Resolves {K : Type} (f : Face) (co : List (V3 K)) (vs : List (V3 K)) : Prop :=
  List.Forall₂ (fun i v => co[i]? = some v) f.points vs

section
variable {K : Type} [Field K] [LinearOrder K]

/-- Vertex number `i` of a closed polygon, `i` being read modulo the number of vertices. -/
def cyc (vs : List (V3 K)) (i : Nat) : V3 K := vs.getD (i % vs.length) V3.zero

/-- All the vertices lie in a plane with normal `N`. -/
def PlanarWith (N : V3 K) (vs : List (V3 K)) : Prop :=
  N ≠ V3.zero ∧ ∀ v ∈ vs, ∀ w ∈ vs, V3.dot N (V3.sub v w) = 0

/-- Seen from the side of `N`, point `c` is strictly to the left of the directed line `a → b`. -/
def Left (N a b c : V3 K) : Prop := 0 < V3.dot N (V3.cross (V3.sub b a) (V3.sub c a))

/-- Strictly convex planar polygon: for some side of its plane, every vertex other than the two ends of an
edge is strictly to the left of that edge. -/
def StrictlyConvex (vs : List (V3 K)) : Prop :=
  ∃ N, PlanarWith N vs ∧
    ∀ i j, j % vs.length ≠ i % vs.length → j % vs.length ≠ (i + 1) % vs.length →
      Left N (cyc vs i) (cyc vs (i + 1)) (cyc vs j)

/-- Locally convex planar polygon: for some side of its plane, it turns strictly to the left at every vertex
(it may wind several times). -/
def LocallyConvex (vs : List (V3 K)) : Prop :=
  ∃ N, PlanarWith N vs ∧ ∀ i, Left N (cyc vs i) (cyc vs (i + 1)) (cyc vs (i + 2))

end
end City.Spec
