import Verif.Model.Raster
import Verif.Model.Node
/-!
The footprint of a node: from its surface to the facets that are projected. The other models of the projection start from the list of the facets.
-/
namespace City

/-- What `trace` sees of a facet of the surface: its identifier and the points of the vertices its half-edges point to, from `facet_begin()` on:
utilities.cpp:7-26, face_projection.cpp:29-38. -/
def Surf.facet {K : Type} (S : Surf K) (f : Nat) : Out (Facet K) := do
  let l ← S.around f
  .ok ⟨S.fid f, l.map fun h => S.pt (S.vert h)⟩

/-- The facets from `facets_cbegin()` to `facets_cend()`: utilities.cpp:27-40. -/
def Surf.facets {K : Type} (S : Surf K) : Out (List (Facet K)) := Out.mapM S.facet S.fs

section
variable {K : Type} [Field K] [LinearOrder K]

/-- `FootPrint::FootPrint(UNode const&)`: scene_projection.cpp:14-28. The reference point of the node, a point with coordinates in double precision, is
taken over; `emb` is its conversion to the numbers of the model. -/
def FootPrint.ofUNode (C : Cgal K) (emb : V3 ℚ → V3 K) (n : UNode K) : Out (FootPrint K) := do
  let facets ← n.surf.facets
  FootPrint.ofNode C n.name (emb n.ref) n.epsg facets

end
end City
