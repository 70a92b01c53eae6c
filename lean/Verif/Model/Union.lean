import Verif.Model.Convert
/-
Model of the constructor of a node from several meshes: /repo/src/lib/scene/unode.cpp:42-91.

The algorithms of CGAL are parameters: `SoupLib` of `Verif.Model.Convert`, and `NefLib` for `stitch_borders`, `triangulate_hole` and the Nef polyhedra.
Simplification: of what is printed (lines 69, 85, 88) the number of facets of the patches is kept.
-/
namespace City

/-- What the constructor uses of CGAL: `stitch_borders` (line 62), `triangulate_hole` with the number of the facets it made (line 67), the Nef polyhedron of no
point (line 82), that of a surface and the union (line 84), `is_simple` (line 86) and `convert_to_polyhedron` (line 87). -/
structure NefLib (K : Type) where
  stitch : Surf K → Surf K
  fill : Surf K → Nat → Surf K × Nat
  Nef : Type
  empty : Nef
  ofSurf : Surf K → Out Nef
  join : Nef → Nef → Nef
  simple : Nef → Bool
  toSurf : Nef → Surf K

/-- The default constructed `Polyhedron`: unode.h, member `surface`. -/
def Surf.none {K : Type} [Ring K] : Surf K := ⟨[], [], [], id, id, id, id, fun _ => Option.none, id, id, fun _ => V3.zero⟩

namespace UNode
variable {K : Type}

/-- The loop that closes the holes: unode.cpp:64-67, over a list of half-edges. The half-edges `triangulate_hole` adds behind the last one are visited too by the
program; they have facets, so that nothing is done for them. -/
def fillHoles (N : NefLib K) : List Nat → Surf K × Nat → Surf K × Nat
  | [], r => r
  | h :: hs, r => fillHoles N hs (if r.1.isBorder h then ((N.fill r.1 h).1, r.2 + (N.fill r.1 h).2) else r)

/-- The function applied to every mesh: unode.cpp:53-78: the surface, and the number that is printed. -/
def piece (L : SoupLib K) (N : NefLib K) (emb : V3 ℚ → V3 K) (m : Mesh) : Out (Surf K × Nat) := do
  let S ← L.build (L.orient (m.points.map emb) (m.faces.map Face.points)).1 (L.orient (m.points.map emb) (m.faces.map Face.points)).2
  let r := fillHoles N (N.stitch S).hs (N.stitch S, 0)
  .ok (orientOutward L r.1, r.2)

/-- `for(auto polyhedron : polyhedrons) N += Nef_Polyhedron(polyhedron)`: unode.cpp:82-84. -/
def joinAll (N : NefLib K) : List (Surf K) → N.Nef → Out N.Nef
  | [], a => .ok a
  | S :: r, a => do
    let b ← N.ofSurf S
    joinAll N r (N.join a b)

/-- `UNode::UNode(node_id, meshes, reference_point, epsg_index)`: unode.cpp:42-91: the node, and the numbers printed for the meshes. -/
def ofMeshes [LinearOrder K] [Ring K] (L : SoupLib K) (N : NefLib K) (emb : V3 ℚ → V3 K) (name : Text) (meshes : List Mesh) (ref : V3 ℚ) (epsg : Nat) :
    Out (UNode K × List Nat) := do
  let ps ← Out.mapM (piece L N emb) meshes
  let a ← joinAll N (ps.map Prod.fst) N.empty
  .ok (UNode.make name ref epsg (if N.simple a then N.toSurf a else Surf.none), ps.map Prod.snd)

end UNode
end City
