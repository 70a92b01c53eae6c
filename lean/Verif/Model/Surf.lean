import Verif.Model.Vec
import Mathlib.Logic.Function.Iterate
/-
Model of the half-edge surface of a node: /repo/src/lib/scene/unode.cpp, from line 290 on, and
/repo/src/lib/algorithms/unode_algorithms.cpp.

`CGAL::Polyhedron_3` is a linked structure. Handles are natural numbers; `hs`, `fs` and `vs` are the lists of half-edges, facets and
vertices in the order of their iterators, the other fields are the memory the handles point to. A handle that is not in its list
is dangling. Coordinates are exact elements of `K`.
-/
namespace City

/-- The surface of a node: `Polyhedron` (geometry_definitions.h:30, unode.h). `face h = none`: `h` is a border half-edge. -/
structure Surf (K : Type) where
  hs : List Nat
  fs : List Nat
  vs : List Nat
  next : Nat → Nat
  prev : Nat → Nat
  opp : Nat → Nat
  vert : Nat → Nat
  face : Nat → Option Nat
  start : Nat → Nat
  fid : Nat → Nat
  pt : Nat → V3 K

/-- Assignment to one cell. -/
def upd {α : Type} (f : Nat → α) (k : Nat) (v : α) : Nat → α := fun n => if n = k then v else f n

/-- `do ... while(++circulator != start)`: the half-edges visited. The number bounds the steps: `none` is a loop that does not end
within it. -/
def circulate (nx : Nat → Nat) (h0 : Nat) : Nat → Nat → Option (List Nat)
  | 0, _ => none
  | n + 1, h => if nx h = h0 then some [h] else (circulate nx h0 n (nx h)).map (h :: ·)

namespace Surf
variable {K : Type}

/-- The half-edges around a facet, as visited by the circulators of unode.cpp: an endless loop is `ub`. -/
def around (S : Surf K) (f : Nat) : Out (List Nat) :=
  match circulate S.next (S.start f) (S.hs.length + 1) (S.start f) with
  | some l => .ok l
  | none => .ub

/-- `is_border()` of a half-edge. -/
def isBorder (S : Surf K) (h : Nat) : Bool := (S.face h).isNone

/-- `is_border_edge()`: the half-edge or its opposite is a border half-edge. -/
def isBorderEdge (S : Surf K) (h : Nat) : Bool := S.isBorder h || S.isBorder (S.opp h)

/-- `set_face_ids`: unode.cpp:430-439. -/
def setIds (S : Surf K) : Surf K := { S with fid := (S.fs.zipIdx.foldl (fun g p => upd g p.1 p.2) S.fid) }

/-- `facet_adjacents`: unode.cpp:441-454. -/
def adjacents (S : Surf K) (f : Nat) : Out (List Nat) := do
  let l ← S.around f
  .ok ((l.filter fun h => !S.isBorder h).filterMap fun h => S.face (S.opp h))

/-- `matrix.at(k) = true` for a vector of booleans: throws when `k` is out of range. -/
def mark (m : List Bool) (k : Nat) : Out (List Bool) := if k < m.length then .ok (m.set k true) else .thrown .outOfRange

/-- The diagonal: unode.cpp:473-474. -/
def markDiagonal (n : Nat) : List Nat → List Bool → Out (List Bool)
  | [], m => .ok m
  | d :: ds, m => do
    let m' ← mark m (d * n + d)
    markDiagonal n ds m'

/-- One line: unode.cpp:481-493; `std::find` in the facet handles, `idxOf?`. -/
def markLine (S : Surf K) (line : Nat) : List Nat → List Bool → Out (List Bool)
  | [], m => .ok m
  | a :: as, m =>
    match S.fs.idxOf? a with
    | none => markLine S line as m
    | some k => do
      let m' ← mark m (line * S.fs.length + k)
      markLine S line as m'

/-- The loop over the lines: unode.cpp:479-495, over the facets with their index. -/
def markLines (S : Surf K) : List (Nat × Nat) → List Bool → Out (List Bool)
  | [], m => .ok m
  | (f, line) :: r, m => do
    let as ← S.adjacents f
    let m' ← markLine S line as m
    markLines S r m'

/-- `facet_adjacency_matrix`: unode.cpp:469-497. -/
def adjacencyMatrix (S : Surf K) : Out (List Bool) := do
  let m ← markDiagonal S.fs.length (List.range S.fs.length) (List.replicate (S.fs.length * S.fs.length) false)
  markLines S S.fs.zipIdx m

/-- The corners of a facet in the order of its circulator. -/
def corners (S : Surf K) (f : Nat) : Out (List (V3 K)) := do
  let l ← S.around f
  .ok (l.map fun h => S.pt (S.vert h))

/-- `remove_tip` of CGAL's HalfedgeDS decorator: the edge after `x` is unlinked. -/
def removeTip (S : Surf K) (x : Nat) : Surf K :=
  { S with next := upd S.next x (S.next (S.opp (S.next x))), prev := upd S.prev (S.next (S.opp (S.next x))) x }

/-- The loop of CGAL's `join_face` that gives the half-edges of the second facet to the first: `while(h != stop) { h = h->next(); set_face(h) }`. -/
def relabel (nx : Nat → Nat) (stop : Nat) (F : Option Nat) : Nat → Nat → (Nat → Option Nat) → Out (Nat → Option Nat)
  | 0, _, _ => .ub
  | n + 1, h, fc => if h = stop then .ok fc else relabel nx stop F n (nx h) (upd fc (nx h) F)

/-- The precondition of `join_facet`: at least three half-edges point to the vertex of `h`. -/
def degreeOk (S : Surf K) (h : Nat) : Bool :=
  decide (S.opp (S.next h) ≠ h) && decide (S.opp (S.next (S.opp (S.next h))) ≠ h)

/-- `UNode::join_facet`: unode.cpp:366-370, that is `CGAL::Polyhedron_3::join_facet`: the facets of `h` and of its opposite become one, the
second is erased with the edge. `ub`: the precondition is violated, or the relabelling does not end. -/
def joinFacet (S : Surf K) (h : Nat) : Out (Surf K) :=
  if !(S.degreeOk h && S.degreeOk (S.opp h)) then .ub
  else do
    let fc ← relabel ((S.removeTip (S.prev h)).removeTip (S.prev (S.opp h))).next (S.prev (S.opp h)) (S.face (S.prev h)) (S.hs.length + 1)
      (S.prev h) S.face
    .ok { (S.removeTip (S.prev h)).removeTip (S.prev (S.opp h)) with
      hs := S.hs.filter fun k => decide (k ≠ h ∧ k ≠ S.opp h)
      fs := match S.face (S.prev (S.opp h)) with
        | some f => S.fs.filter fun k => decide (k ≠ f)
        | none => S.fs
      face := fc
      start := match S.face (S.prev h) with
        | some f => upd S.start f (S.prev h)
        | none => S.start }

section
variable [Ring K] [DecidableEq K]

/-- The test of `prunable`: unode.cpp:295-309. `nrm` is `CGAL::Polygon_mesh_processing::compute_face_normal` as a function of the corners. -/
def joinable (nrm : List (V3 K) → V3 K) (S : Surf K) (h : Nat) : Out Bool :=
  if S.isBorderEdge h then .ok false
  else
    match S.face h, S.face (S.opp h) with
    | some f, some g => do
      let a ← S.corners f
      let b ← S.corners g
      .ok (decide (V3.cross (nrm a) (nrm b) = V3.zero))
    | _, _ => .ub

/-- `std::find_if`. -/
def findJoinable (nrm : List (V3 K) → V3 K) (S : Surf K) : List Nat → Out (Option Nat)
  | [] => .ok none
  | h :: hs => do
    let b ← joinable nrm S h
    if b then .ok (some h) else findJoinable nrm S hs

/-- `prunable`: unode.cpp:290-312. -/
def prunable (nrm : List (V3 K) → V3 K) (S : Surf K) : Out (Option Nat) := findJoinable nrm S S.hs

/-- The loop of `prune`: unode_algorithms.cpp:71-77. The assignment of the node to itself changes nothing. The number bounds the rounds. -/
def pruneLoop (nrm : List (V3 K) → V3 K) : Nat → Surf K → Out (Surf K)
  | 0, _ => .ub
  | n + 1, S => do
    let p ← prunable nrm S
    match p with
    | none => .ok S
    | some h => do
      let S' ← S.joinFacet h
      pruneLoop nrm n S'

/-- `prune`: unode_algorithms.cpp:69-82. `stitch` is `UNode::stitch_borders`, unode.cpp:371-378, which is done by CGAL. -/
def prune (nrm : List (V3 K) → V3 K) (stitch : Surf K → Surf K) (S : Surf K) : Out (Surf K) := do
  let S' ← pruneLoop nrm (S.hs.length + 1) S
  .ok (stitch S').setIds

/-- `combinable`: unode.cpp:313-333: the opposites of the edges of the facet across which the surface is flat. -/
def combinable (S : Surf K) (f : Nat) : Out (List Nat) := do
  let l ← S.around f
  .ok ((l.filter fun h => !S.isBorderEdge h && decide (V3.determinant
      (V3.vec (S.pt (S.vert h)) (S.pt (S.vert (S.next h))))
      (V3.vec (S.pt (S.vert h)) (S.pt (S.vert (S.next (S.next h)))))
      (V3.vec (S.pt (S.vert h)) (S.pt (S.vert (S.next (S.opp h))))) = 0)).map S.opp)

end

/-- `affine_transform`: unode_algorithms.cpp:30-42: every point is replaced. -/
def transform (m : V3 K → V3 K) (S : Surf K) : Surf K := { S with pt := fun v => if v ∈ S.vs then m (S.pt v) else S.pt v }

end Surf
end City
