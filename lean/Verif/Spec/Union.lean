import Verif.Model.Union
import Verif.Spec.Convert
/-!
Specification vocabulary for nodes made of several meshes.
-/
namespace City.Spec
open City
variable {K : Type}

/-- The surface encloses the point: it is in the set of points, `mem`, of the Nef polyhedron of the surface. -/
def Encloses (N : NefLib K) (mem : N.Nef → V3 K → Prop) (S : Surf K) (p : V3 K) : Prop := ∃ a, N.ofSurf S = .ok a ∧ mem a p

/-- Near `p` the set is made of two opposite wedges with nothing but the vertical edge through `p` in common. -/
def Pinched [Ring K] [LinearOrder K] (A : V3 K → Prop) (p : V3 K) : Prop :=
  ∃ δ : K, 0 < δ ∧ ∀ d : V3 K, |d.x| < δ → |d.y| < δ → |d.z| < δ → (A (V3.add p d) ↔ (0 ≤ d.x ∧ 0 ≤ d.y) ∨ (d.x ≤ 0 ∧ d.y ≤ 0))

/-- What CGAL promises: the Nef polyhedra are sets of points, made of outward oriented closed surfaces; `+` is the union; whether a set is simple depends on the
set only, its boundary is then a manifold, and it can be converted to a closed surface that encloses it. Closed surfaces need not be stitched. -/
structure NefLaw [Ring K] [LinearOrder K] (L : SoupLib K) (N : NefLib K) (mem : N.Nef → V3 K → Prop) : Prop where
  empty : ∀ p, ¬ mem N.empty p
  join : ∀ a b p, mem (N.join a b) p ↔ mem a p ∨ mem b p
  made : ∀ S, ValidSurf S → ClosedSurf S → L.outward S = true → ∃ a, N.ofSurf S = .ok a
  hollow : ∀ S a p, S.hs = [] → N.ofSurf S = .ok a → ¬ mem a p
  simple_same : ∀ a b, (∀ p, mem a p ↔ mem b p) → N.simple a = N.simple b
  manifold : ∀ a, N.simple a = true → ∀ p, ¬ Pinched (mem a) p
  convert : ∀ a, N.simple a = true → ValidSurf (N.toSurf a) ∧ ClosedSurf (N.toSurf a) ∧ ∃ b, N.ofSurf (N.toSurf a) = .ok b ∧ ∀ p, mem b p ↔ mem a p
  convert_empty : ∀ a, (∀ p, ¬ mem a p) → (N.toSurf a).hs = []
  stitch_valid : ∀ S, ValidSurf S → ValidSurf (N.stitch S)
  stitch_closed : ∀ S, ValidSurf S → ClosedSurf S → N.stitch S = S

/-- Every hole can be triangulated: the half-edge it is asked for gets a facet, no half-edge is removed, there are no new border half-edges, and the number
of facets grows by the number that is returned. -/
def FillsHoles (N : NefLib K) : Prop :=
  ∀ S h, ValidSurf S → h ∈ S.hs → S.face h = none → ValidSurf (N.fill S h).1 ∧ (N.fill S h).1.face h ≠ none ∧ (∀ k ∈ S.hs, k ∈ (N.fill S h).1.hs) ∧
    (N.fill S h).1.fs.length = S.fs.length + (N.fill S h).2 ∧
    ∀ k ∈ (N.fill S h).1.hs, (N.fill S h).1.face k = none → k ∈ S.hs ∧ S.face k = none

/-- The faces of the mesh form an oriented surface without border. -/
def ClosedMesh (emb : V3 ℚ → V3 K) (m : Mesh) : Prop := PolygonMesh (m.points.map emb) (m.faces.map Face.points) ∧ ClosedSoup (m.faces.map Face.points)

/-- The node made of the mesh alone encloses the point. -/
def MeshEncloses [LinearOrder K] (L : SoupLib K) (N : NefLib K) (mem : N.Nef → V3 K → Prop) (emb : V3 ℚ → V3 K) (m : Mesh) (p : V3 K) : Prop :=
  ∃ n, UNode.ofMesh L emb m V3.zero 0 = .ok n ∧ Encloses N mem n.surf p

end City.Spec
