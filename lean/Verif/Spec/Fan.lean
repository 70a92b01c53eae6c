import Verif.Spec.Face
import Verif.Model.Face3ds
/-!
Specification vocabulary for triangulations.
-/
namespace City.Spec
open City

/-- The index triangle of a 3DS facet. -/
def tri (t : Face3ds) : List Nat := [t.a, t.b, t.c]

/-- Sum of a list of vectors. -/
def vsum {K : Type} [Ring K] (l : List (V3 K)) : V3 K := l.foldr V3.add V3.zero

/-- Twice the vector area of a closed polygon: the sum of `a × b` over its directed edges. -/
def vectorArea2 {K : Type} [Ring K] (vs : List (V3 K)) : V3 K :=
  vsum ((boundary vs).map fun e => V3.cross e.1 e.2)

/-- A point list indexed by naturals, with a default outside (only used for valid indexes). -/
def pt {K : Type} [Ring K] (co : List (V3 K)) (i : Nat) : V3 K := co.getD i V3.zero

end City.Spec
