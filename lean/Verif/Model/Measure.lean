import Verif.Model.Node
import Verif.Model.Poly
import Verif.Spec.Fan
/-
Model of the measures: /repo/src/lib/algorithms/util_algorithms.cpp:47-155, /repo/src/lib/scene/unode.cpp:380-428 and
/repo/src/lib/algorithms/unode_algorithms.cpp:84-120. Lengths need square roots, so these are over `ℝ`; rounding to doubles is not modelled.
-/
namespace City

section
variable {K : Type} [Field K] [LinearOrder K]

/-- `check_collinearity`: util_algorithms.cpp:47-55. -/
def checkCollinearity (ps : List (V2 K)) : Out Bool :=
  match ps with
  | p :: q :: r :: _ => .ok (decide (triArea p q r = 0))
  | _ => .thrown .outOfRange

/-- `CGAL::squared_distance` of points of the plane. -/
def sqDist (p q : V2 K) : K := (p.x - q.x) ^ 2 + (p.y - q.y) ^ 2

/-- `a / b > 1` for doubles that are not negative: `a / 0` is infinite or, if `a` is zero too, not a number, which is not above anything. -/
def ratioAbove (a b : K) : Bool := if b = 0 then decide (0 < a) else decide (1 < a / b)

/-- The body of the loop of `extrem_points`: util_algorithms.cpp:64-75. -/
def extremStep (s : V2 K × V2 K) (c : V2 K) : V2 K × V2 K :=
  if ratioAbove (sqDist s.1 c) (sqDist s.1 s.2) || ratioAbove (sqDist s.2 c) (sqDist s.1 s.2) then
    if ratioAbove (sqDist s.1 s.2) (sqDist s.1 c) || ratioAbove (sqDist s.2 c) (sqDist s.1 c) then (c, s.2) else (s.1, c)
  else s

/-- `extrem_points`: util_algorithms.cpp:57-78. -/
def extremPoints (ps : List (V2 K)) : Out (V2 K × V2 K) := do
  let a ← Out.atOr ps 0
  let b ← Out.atOr ps 1
  .ok ((ps.drop 2).foldl extremStep (a, b))
end

/-- `edges_begin()` to `edges_end()` of a polygon: each vertex with the next, the last with the first. -/
def polyEdges {K : Type} : Poly K → List (V2 K × V2 K)
  | [] => []
  | p :: t => (p :: t).zip (t ++ [p])

/-- `edge_lengths(Polygon)`: util_algorithms.cpp:117-135: there are as many edges as vertices. -/
noncomputable def edgeLengths (p : Poly ℝ) : List ℝ := (polyEdges p).map fun e => Real.sqrt (sqDist e.1 e.2)

/-- `circumference(Polygon)`: util_algorithms.cpp:136-155. -/
noncomputable def polyCircumference (p : Poly ℝ) : ℝ := (polyEdges p).foldl (fun s e => s + Real.sqrt (sqDist e.1 e.2)) 0

namespace Surf

/-- `sqrt(squared_distance)` between the ends of the edge of a half-edge: unode.cpp:417-424, unode_algorithms.cpp:103-118. -/
noncomputable def edgeLength (S : Surf ℝ) (h : Nat) : ℝ :=
  Real.sqrt (V3.dot (V3.vec (S.pt (S.vert h)) (S.pt (S.vert (S.opp h)))) (V3.vec (S.pt (S.vert h)) (S.pt (S.vert (S.opp h)))))

/-- `UNode::circumference`: unode.cpp:410-428. -/
noncomputable def circumference (S : Surf ℝ) (f : Nat) : Out ℝ := do
  let l ← S.around f
  .ok (l.foldl (fun s h => s + S.edgeLength h) 0)

/-- `UNode::normal`: unode.cpp:399-403; CGAL's `compute_face_normal` is the area vector divided by its length. -/
noncomputable def normal (S : Surf ℝ) (f : Nat) : Out (V3 ℝ) := do
  let c ← S.corners f
  .ok (V3.divs (Spec.vectorArea2 c) (V3.norm (Spec.vectorArea2 c)))

/-- `UNode::area`: unode.cpp:404-409; CGAL's `face_area` is documented for triangles only: anything else is counted as undefined. -/
noncomputable def faceArea (S : Surf ℝ) (f : Nat) : Out ℝ := do
  let c ← S.corners f
  match c with
  | [p, q, r] => .ok (V3.norm (V3.cross (V3.vec p q) (V3.vec p r)) / 2)
  | _ => .ub

/-- One step of the loop of `UNode::centroid`: unode.cpp:388-394. -/
noncomputable def centroidTerm (n : V3 ℝ) (p q : V3 ℝ) : V3 ℝ :=
  V3.divs (V3.smul (V3.dot (V3.cross p q) n) (V3.add p q)) 6

/-- `UNode::centroid`: unode.cpp:380-398. -/
noncomputable def centroid (S : Surf ℝ) (f : Nat) : Out (V3 ℝ) := do
  let n ← S.normal f
  let l ← S.around f
  let a ← S.faceArea f
  .ok (V3.divs (l.foldl (fun s h => V3.add s (centroidTerm n (S.pt (S.vert h)) (S.pt (S.vert (S.next h))))) V3.zero) a)

/-- `area(unode)`: unode_algorithms.cpp:84-96. -/
noncomputable def area (S : Surf ℝ) : Out ℝ := do
  let as ← Out.mapM (fun f => S.faceArea f) S.fs
  .ok (as.foldl (· + ·) 0)

/-- `total_edge_length`: unode_algorithms.cpp:98-120: over all half-edges. -/
noncomputable def totalEdgeLength (S : Surf ℝ) : ℝ := S.hs.foldl (fun s h => s + S.edgeLength h) 0

end Surf
end City
