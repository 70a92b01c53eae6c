import Verif.Model.Face
/-
Model of `Face::to_3ds`: /repo/src/lib/shadow/face.cpp:204-236.
Simplification: `float` and `double` are both exact reals (no rounding); memory allocation succeeds and leaks are
not modelled. `Lib3dsWord` is a 16 bit unsigned integer.
-/
namespace City

/-- `Lib3dsFace` as far as the code uses it: three 16 bit indexes and a normal. -/
structure Face3ds where
  a : Nat
  b : Nat
  c : Nat
  normal : V3 ℝ

/-- Conversion `std::size_t` to `Lib3dsWord` (`std::copy` into `current->points`): face.cpp:221-222. -/
def word (n : Nat) : Nat := n % 65536

/-- The lambda of `Face::to_3ds`: face.cpp:219-228 (`.at` is checked: out_of_range). -/
noncomputable def Face.fanTriangle (co : List (V3 ℝ)) (p0 : Nat) (bc : Nat × Nat) : Out Face3ds := do
  let A ← Out.atOr co p0
  let B ← Out.atOr co bc.1
  let C ← Out.atOr co bc.2
  .ok ⟨word p0, word bc.1, word bc.2, V3.normalTo A B C⟩

/-- `Face::to_3ds`: face.cpp:204-236. The transform runs over `points[1..n-2]` paired with `points[2..n-1]`.
A face of degree less than 3 is refused by `is_convex` (out_of_range). -/
noncomputable def Face.to3ds (f : Face) (co : List (V3 ℝ)) : Out (List Face3ds) :=
  if co.length < f.points.length then .thrown .outOfRange
  else do
    let convex ← Face.isConvex f co
    if convex then
      match f.points with
      | [] => .ok []
      | p0 :: t => Out.mapM (Face.fanTriangle co p0) (t.zip t.tail)
    else .thrown .logicError

end City
