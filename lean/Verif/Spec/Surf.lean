import Verif.Model.Surf
import Verif.Spec.Fan
/-!
Specification vocabulary for half-edge surfaces.
-/
namespace City.Spec
open City
variable {K : Type}

/-- What `CGAL::Polyhedron_3::is_valid` asks of a surface. -/
structure ValidSurf (S : Surf K) : Prop where
  nodup : S.hs.Nodup
  fnodup : S.fs.Nodup
  next_mem : ∀ h ∈ S.hs, S.next h ∈ S.hs
  prev_mem : ∀ h ∈ S.hs, S.prev h ∈ S.hs
  opp_mem : ∀ h ∈ S.hs, S.opp h ∈ S.hs
  vert_mem : ∀ h ∈ S.hs, S.vert h ∈ S.vs
  prev_next : ∀ h ∈ S.hs, S.prev (S.next h) = h
  next_prev : ∀ h ∈ S.hs, S.next (S.prev h) = h
  opp_opp : ∀ h ∈ S.hs, S.opp (S.opp h) = h
  opp_ne : ∀ h ∈ S.hs, S.opp h ≠ h
  /-- Facets have at least three edges. -/
  next_ne : ∀ h ∈ S.hs, S.next h ≠ h
  two_ne : ∀ h ∈ S.hs, S.next (S.next h) ≠ h
  /-- The ends of an edge are different. -/
  vert_ne : ∀ h ∈ S.hs, S.vert h ≠ S.vert (S.opp h)
  /-- The opposite of the next half-edge points to the same vertex. -/
  turn : ∀ h ∈ S.hs, S.vert (S.opp (S.next h)) = S.vert h
  face_mem : ∀ h ∈ S.hs, ∀ f, S.face h = some f → f ∈ S.fs
  face_next : ∀ h ∈ S.hs, S.face (S.next h) = S.face h
  start_mem : ∀ f ∈ S.fs, S.start f ∈ S.hs
  face_start : ∀ f ∈ S.fs, S.face (S.start f) = some f
  /-- The half-edges of a facet are on one cycle. -/
  one_cycle : ∀ f ∈ S.fs, ∀ h ∈ S.hs, S.face h = some f → ∃ n : Nat, S.next^[n] (S.start f) = h

/-- Two facets share an edge. -/
def ShareEdge (S : Surf K) (f g : Nat) : Prop := ∃ h ∈ S.hs, S.face h = some f ∧ S.face (S.opp h) = some g

/-- The half-edge `x` of the surface leads from one corner to the next: contribution of the edge to the area vector of its facet. -/
def edgeCross [Ring K] (S : Surf K) (x : Nat) : V3 K := V3.cross (S.pt (S.vert (S.opp x))) (S.pt (S.vert x))

/-- Twice the area vector of the facet `f`: the sum over its half-edges. -/
def facetVector [Ring K] (S : Surf K) (f : Nat) : V3 K := vsum ((S.hs.filter fun h => decide (S.face h = some f)).map (edgeCross S))

/-- The corners of the facet `f`. -/
def Corner (S : Surf K) (f : Nat) (p : V3 K) : Prop := ∃ h ∈ S.hs, S.face h = some f ∧ S.pt (S.vert h) = p

/-- All corners of a facet are on the plane through one of them which is normal to its area vector. -/
def PlanarFacet [Ring K] (S : Surf K) (f : Nat) : Prop :=
  ∀ p q, Corner S f p → Corner S f q → V3.dot (facetVector S f) (V3.vec p q) = 0

end City.Spec
