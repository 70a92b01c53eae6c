import Verif.Model.VecDbl
import Verif.Model.Face
/-
Model of `Face::is_convex` (/repo/src/lib/shadow/face.cpp:155-202) on IEEE doubles: as in Model/Face.lean, with every operation rounded and the order of `valarray::sum` as a parameter.
-/
namespace City
namespace Face

/-- One iteration of the loop of `Face::is_convex`: face.cpp:196-198. -/
def turnOkD (o : SumOrder) (co : List (V3 Dbl)) (n : V3 Dbl) (t : Nat × Nat × Nat) : Out Bool := do
  let A ← Out.atOr co t.1
  let B ← Out.atOr co t.2.1
  let C ← Out.atOr co t.2.2
  .ok ((V3.dotD o (V3.crossD (V3.vecD A B) n) (V3.vecD B C)).lt (.fin 0))

/-- The `do .. while(convexity && ++circulator != end)` loop: face.cpp:175-199. -/
def convexLoopD (o : SumOrder) (co : List (V3 Dbl)) (n : V3 Dbl) : List (Nat × Nat × Nat) → Out Bool
  | [] => .ok true
  | t :: ts => do
    let b ← turnOkD o co n t
    if b then convexLoopD o co n ts else .ok false

/-- `Face::is_convex`: face.cpp:155-202. -/
def isConvexD (o : SumOrder) (f : Face) (co : List (V3 Dbl)) : Out Bool :=
  let p := f.points
  let d := p.length
  if co.length < d then .thrown .outOfRange
  else if d < 3 then .thrown .outOfRange
  else if 3 < d then do
    let a ← Out.atOr co (p.getD 0 0)
    let b ← Out.atOr co (p.getD 1 0)
    let c ← Out.atOr co (p.getD 2 0)
    let n := V3.crossD (V3.vecD a b) (V3.vecD b c)
    convexLoopD o co n ((List.range d).map (window p))
  else .ok true

end Face
end City
