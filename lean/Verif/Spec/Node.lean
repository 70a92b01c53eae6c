import Verif.Model.Node
import Verif.Spec.Surf
/-!
Specification vocabulary for nodes and their transformations.
-/
namespace City.Spec
open City
variable {K : Type}

/-- `b` is the tight box of the points: they are all inside and every side touches one of them. -/
structure SnugBox [LinearOrder K] (b : Box3 K) (ps : List (V3 K)) : Prop where
  inside : ∀ p ∈ ps, b.lo.x ≤ p.x ∧ p.x ≤ b.hi.x ∧ b.lo.y ≤ p.y ∧ p.y ≤ b.hi.y ∧ b.lo.z ≤ p.z ∧ p.z ≤ b.hi.z
  xlo : ∃ p ∈ ps, p.x = b.lo.x
  xhi : ∃ p ∈ ps, p.x = b.hi.x
  ylo : ∃ p ∈ ps, p.y = b.lo.y
  yhi : ∃ p ∈ ps, p.y = b.hi.y
  zlo : ∃ p ∈ ps, p.z = b.lo.z
  zhi : ∃ p ∈ ps, p.z = b.hi.z

/-- The node `n'` is the node `n` whose vertices were moved by `m`; facets, edges, vertices and identifiers are the same. -/
structure Moved (m : V3 K → V3 K) (n n' : UNode K) : Prop where
  point : ∀ v ∈ n.surf.vs, n'.surf.pt v = m (n.surf.pt v)
  hs : n'.surf.hs = n.surf.hs
  fs : n'.surf.fs = n.surf.fs
  vs : n'.surf.vs = n.surf.vs
  next : n'.surf.next = n.surf.next
  prev : n'.surf.prev = n.surf.prev
  opp : n'.surf.opp = n.surf.opp
  vert : n'.surf.vert = n.surf.vert
  face : n'.surf.face = n.surf.face
  start : n'.surf.start = n.surf.start
  fid : n'.surf.fid = n.surf.fid
  name : n'.name = n.name
  ref : n'.ref = n.ref
  epsg : n'.epsg = n.epsg

/-- Squared distance of two points. -/
def dist2 [Ring K] (p q : V3 K) : K := (q.x - p.x) ^ 2 + (q.y - p.y) ^ 2 + (q.z - p.z) ^ 2

end City.Spec
