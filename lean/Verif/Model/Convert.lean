import Verif.Model.Node
import Verif.Model.Mesh
/-
Model of the conversions between nodes and meshes: /repo/src/lib/shadow/mesh.cpp:65-94, 203-217, 230-244, /repo/src/lib/shadow/face.cpp:35-45 and
/repo/src/lib/scene/unode.cpp:92-125.

The algorithms of CGAL on soups of polygons are a parameter, `SoupLib`. `rnd` is the conversion of an exact point to doubles, `emb` the converse.
-/
namespace City

namespace Surf
variable {K : Type}

/-- `points_index[Vertex_const_iterator(v)]` of `CGAL::Inverse_index` (face.cpp:42, mesh.cpp:79): the position of a vertex in the list of vertices. A vertex
that is not in the list violates a precondition of CGAL. -/
def vertexIndex (S : Surf K) (v : Nat) : Out Nat :=
  match S.vs.idxOf? v with
  | some k => .ok k
  | none => .ub

/-- `CGAL::is_closed`: unode.cpp:105, 121: no half-edge is a border. -/
def isClosed (S : Surf K) : Bool := S.hs.all fun h => !S.isBorder h

/-- `CGAL::Polygon_mesh_processing::reverse_face_orientations`: unode.cpp:106, 122: every cycle of half-edges is run through the other way, every half-edge
points to where it came from. -/
def reverseFaces (S : Surf K) : Surf K := { S with next := S.prev, prev := S.next, vert := fun h => S.vert (S.opp h) }

end Surf

/-- `Face::Face(facet, points_index)`: face.cpp:35-45: `facet_degree()` is the number of half-edges the circulator visits. -/
def Face.ofFacet {K : Type} (S : Surf K) (f : Nat) : Out Face := do
  let l ← S.around f
  let is ← Out.mapM (fun h => S.vertexIndex (S.vert h)) l
  .ok ⟨is⟩

/-- `Mesh::Mesh(name, polyhedron)`: mesh.cpp:65-89. -/
def Mesh.ofSurf {K : Type} (rnd : V3 K → V3 ℚ) (name : Text) (S : Surf K) : Out Mesh := do
  let fs ← Out.mapM (Face.ofFacet S) S.fs
  .ok (Mesh.make name (S.points.map rnd) fs)

/-- `Mesh::Mesh(unode)`: mesh.cpp:91-93. -/
def Mesh.ofNode {K : Type} (rnd : V3 K → V3 ℚ) (n : UNode K) : Out Mesh := Mesh.ofSurf rnd n.name n.surf

/-- What is used of CGAL: `orient_polygon_soup`, `polygon_soup_to_polygon_mesh` (undefined when its precondition is violated) and `is_outward_oriented`. -/
structure SoupLib (K : Type) where
  orient : List (V3 K) → List (List Nat) → List (V3 K) × List (List Nat)
  build : List (V3 K) → List (List Nat) → Out (Surf K)
  outward : Surf K → Bool

namespace UNode
variable {K : Type}

/-- Closed surfaces that are not outward oriented are turned: unode.cpp:105-106, 121-122. -/
def orientOutward (L : SoupLib K) (S : Surf K) : Surf K := if S.isClosed && !L.outward S then S.reverseFaces else S

/-- `UNode::UNode(building_id, points, polygons, reference_point, epsg_index)`: unode.cpp:110-125. -/
def ofSoup [LinearOrder K] (L : SoupLib K) (name : Text) (pts : List (V3 K)) (polys : List (List Nat)) (ref : V3 ℚ) (epsg : Nat) : Out (UNode K) := do
  let S ← L.build (L.orient pts polys).1 (L.orient pts polys).2
  .ok (UNode.make name ref epsg (orientOutward L S))

/-- `UNode::UNode(mesh, reference_point, epsg_index)`: unode.cpp:92-109, with `Mesh::get_cgal_points` and `Mesh::get_cgal_faces`: mesh.cpp:203-217, 230-244. -/
def ofMesh [LinearOrder K] (L : SoupLib K) (emb : V3 ℚ → V3 K) (m : Mesh) (ref : V3 ℚ) (epsg : Nat) : Out (UNode K) :=
  ofSoup L m.name (m.points.map emb) (m.faces.map Face.points) ref epsg

end UNode
end City
