import Verif.Model.Convert
import Verif.Spec.Surf
import Verif.Spec.Mesh
/-!
Specification vocabulary for the conversion of surfaces to lists of polygons and back.
-/
namespace City.Spec
open City
variable {K : Type}

/-- `l` lists the half-edges of the facet `f`, each once, in the order of the boundary. -/
structure BoundaryOf (S : Surf K) (f : Nat) (l : List Nat) : Prop where
  ne : l ≠ []
  nodup : l.Nodup
  mem : ∀ h, h ∈ l ↔ h ∈ S.hs ∧ S.face h = some f
  order : ∀ e ∈ boundary l, S.next e.1 = e.2

/-- The numbers `p` are the positions, in the list of vertices, of the corners of the facet `f`, in the order of its boundary. -/
def CornersOf (S : Surf K) (f : Nat) (p : List Nat) : Prop :=
  ∃ l, BoundaryOf S f l ∧ List.Forall₂ (fun h i => S.vs[i]? = some (S.vert h)) l p

/-- The surface has the vertices `pts`, every vertex is used, its facets are the polygons `polys`, each starting at any of its corners; the facets around a
vertex follow one another around it, and facets with a common edge, run through in opposite directions, are joined there. -/
structure Represents (S : Surf K) (pts : List (V3 K)) (polys : List (List Nat)) : Prop where
  valid : ValidSurf S
  vnodup : S.vs.Nodup
  points : S.points = pts
  used : ∀ v ∈ S.vs, ∃ h ∈ S.hs, S.vert h = v
  fan : ∀ h ∈ S.hs, ∀ k ∈ S.hs, S.vert h = S.vert k → ∃ n : Nat, (fun x => S.opp (S.next x))^[n] h = k
  facets : List.Forall₂ (CornersOf S) S.fs polys
  /-- There are no edges without facet. -/
  edge : ∀ h ∈ S.hs, S.face h = none → S.face (S.opp h) ≠ none
  /-- No polygon runs along a border half-edge in its direction. -/
  glued : ∀ h ∈ S.hs, S.face h = none → ∀ p ∈ polys, ∀ e ∈ boundary p, ¬ (S.vs[e.1]? = some (S.vert (S.opp h)) ∧ S.vs[e.2]? = some (S.vert h))

/-- Every edge of a polygon is run through in the other direction by some polygon. -/
def ClosedSoup (polys : List (List Nat)) : Prop := ∀ p ∈ polys, ∀ e ∈ boundary p, ∃ q ∈ polys, (e.2, e.1) ∈ boundary q

/-- The polygons are the facets of an oriented surface without singular edge or vertex: `is_polygon_soup_a_polygon_mesh` of CGAL. -/
def PolygonMesh (pts : List (V3 K)) (polys : List (List Nat)) : Prop := ∃ S, Represents S pts polys

/-- A surface without border. -/
def ClosedSurf (S : Surf K) : Prop := ∀ h ∈ S.hs, S.face h ≠ none

/-- What CGAL promises: a consistently oriented soup is not changed by `orient_polygon_soup`, and a surface is made of it; `is_outward_oriented` depends on
the geometry only, and a closed surface or its mirror is outward oriented. -/
structure SoupLaw (L : SoupLib K) : Prop where
  orient_id : ∀ pts polys, PolygonMesh pts polys → L.orient pts polys = (pts, polys)
  build_ok : ∀ pts polys, PolygonMesh pts polys → ∃ S, L.build pts polys = .ok S ∧ Represents S pts polys
  outward_same : ∀ S S' pts polys, Represents S pts polys → Represents S' pts polys → L.outward S = L.outward S'
  outward_reverse : ∀ S pts polys, Represents S pts polys → ClosedSurf S → L.outward S = false → L.outward S.reverseFaces = true

end City.Spec
