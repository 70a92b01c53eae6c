import Verif.Model.BrickPrint
/-
Model of the point queries of /repo/src/lib/projection/face_projection.cpp and brick_projection.cpp that take double coordinates, and of the
domain of a brick print. `to_exact` of a double is the double itself: the coordinates of an inexact point are elements of `K`.
-/
namespace City

section
variable {K : Type} [Field K] [LinearOrder K]

namespace FacePrint
variable (C : Cgal K)

/-- `contains(InexactPoint_2)`: face_projection.cpp:264-268. -/
def containsInexact (f : FacePrint K) (p : V2 K) : Bool := f.contains C p

/-- `get_height(InexactPoint_2)`: face_projection.cpp:134-137: all the factors are computed. -/
def heightInexact (f : FacePrint K) (p : V2 K) : Out K := do
  let z ← planeHeightInexact C f p
  .ok (times (!isDegenerate C f && containsInexact C f p) z)

end FacePrint

/-- `CGAL::do_overlap(Bbox_2, Bbox_2)`: the closed boxes meet; the empty box meets none. -/
def Box2.overlap : Option (Box2 K) → Option (Box2 K) → Bool
  | some a, some b => !(decide (a.xmax < b.xmin) || decide (b.xmax < a.xmin) || decide (a.ymax < b.ymin) || decide (b.ymax < a.ymin))
  | _, _ => false

namespace Brick
variable (C : Cgal K)

/-- `contains(InexactPoint_2)`: brick_projection.cpp:123-127. -/
def containsInexact (b : Brick K) (p : V2 K) : Bool := b.contains C p

/-- `in_domain`: brick_projection.cpp:128-131. -/
def inDomain (b : Brick K) (p : V2 K) : Bool := Box2.overlap b.bbox (some (Box2.point p))

/-- The accumulation of `get_height(InexactPoint_2)`: brick_projection.cpp:201-209. -/
def sumInexact (p : V2 K) : List (FacePrint K) → K → Out K
  | [], z => .ok z
  | f :: fs, z => do
    let h ← f.heightInexact C p
    sumInexact p fs (z + h)

/-- `get_height(InexactPoint_2)`: brick_projection.cpp:197-211. -/
def heightInexact (b : Brick K) (p : V2 K) : Out K :=
  if b.containsInexact C p then sumInexact C p b.faces 0 else .ok 0

end Brick
end
end City
