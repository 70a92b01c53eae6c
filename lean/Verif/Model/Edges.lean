import Verif.Model.Surf
import Verif.Model.Measure
/-
Model of `UNode::pruning_halfedges` (/repo/src/lib/scene/unode.cpp:334-365) and `border_length` (/repo/src/lib/algorithms/unode_algorithms.cpp:17-28).
-/
namespace City.Surf

section
variable {K : Type} [DecidableEq K]

/-- The test of unode.cpp:352-355: the ends of two edges are the same two points. -/
def sameEnds (S : Surf K) (present h : Nat) : Bool :=
  (decide (S.pt (S.vert present) = S.pt (S.vert h)) && decide (S.pt (S.vert (S.opp present)) = S.pt (S.vert (S.opp h)))) ||
  (decide (S.pt (S.vert (S.opp present)) = S.pt (S.vert h)) && decide (S.pt (S.vert present) = S.pt (S.vert (S.opp h))))

/-- `std::copy_if` to the end of the list that its predicate looks at: unode.cpp:343-360. -/
def addEdges (S : Surf K) : List Nat → List Nat → List Nat
  | acc, [] => acc
  | acc, h :: buffer => addEdges S (if acc.all fun present => !S.sameEnds present h then acc ++ [h] else acc) buffer

/-- The loop over the facets: unode.cpp:338-363. -/
def pruningLoop [Ring K] (S : Surf K) : List Nat → List Nat → Out (List Nat)
  | [], acc => .ok acc
  | f :: fs, acc => do
    let buffer ← S.combinable f
    pruningLoop S fs (S.addEdges acc buffer)

/-- `pruning_halfedges`: unode.cpp:334-365. -/
def pruningHalfedges [Ring K] (S : Surf K) : Out (List Nat) := S.pruningLoop S.fs []
end

/-- `border_length`: unode_algorithms.cpp:17-28. `border` is the position of `border_halfedges_begin()` in the list of half-edges, as left by `normalize_border`; without
any call of it (`none`) the iterator is not defined. For every half-edge of the range, the distance between its vertex and that of the next is added. -/
noncomputable def borderLength (S : Surf ℝ) (border : Option Nat) : Out ℝ :=
  match border with
  | none => .ub
  | some k => .ok ((S.hs.drop k).foldl (fun s h => s + Real.sqrt (V3.dot (V3.vec (S.pt (S.vert (S.next h))) (S.pt (S.vert h)))
      (V3.vec (S.pt (S.vert (S.next h))) (S.pt (S.vert h))))) 0)

end City.Surf
