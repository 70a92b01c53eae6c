import Mathlib.Algebra.Order.Field.Rat
import Verif.Model.Vec
/-
Model of /repo/src/lib/shadow/bbox.cpp and of Mesh::compute_bbox (mesh.cpp:348-359).
Doubles are extended: NaN, the two infinities and finite values (exact rationals; zeros unsigned).
-/
namespace City

/-- IEEE doubles as far as comparisons are concerned. -/
inductive Dbl
  | nan | ninf | fin (q : ℚ) | pinf
  deriving DecidableEq, Repr

namespace Dbl
/-- IEEE `a < b`: false as soon as one operand is NaN. -/
def lt : Dbl → Dbl → Bool
  | nan, _ => false
  | _, nan => false
  | ninf, ninf => false
  | ninf, _ => true
  | fin _, ninf => false
  | fin a, fin b => decide (a < b)
  | fin _, pinf => true
  | pinf, _ => false
/-- `std::min<double>(a, b)` = `(b < a) ? b : a` ([alg.min.max]). -/
def cmin (a b : Dbl) : Dbl := if lt b a then b else a
/-- `std::max<double>(a, b)` = `(a < b) ? b : a` ([alg.min.max]). -/
def cmax (a b : Dbl) : Dbl := if lt a b then b else a
end Dbl

/-- `shadow::Bbox`: bbox.cpp:25-34, six extremes in the order xmin xmax ymin ymax zmin zmax. -/
@[ext] structure Bbox where
  xmin : Dbl
  xmax : Dbl
  ymin : Dbl
  ymax : Dbl
  zmin : Dbl
  zmax : Dbl
  deriving DecidableEq, Repr

namespace Bbox
/-- `Bbox::Bbox(void)`: bbox.cpp:15-24. -/
def empty : Bbox := ⟨.pinf, .ninf, .pinf, .ninf, .pinf, .ninf⟩
/-- `Bbox::Bbox(Point)`: bbox.cpp:35-47. -/
def ofPoint (p : V3 Dbl) : Bbox := ⟨p.x, p.x, p.y, p.y, p.z, p.z⟩
/-- `Bbox::operator +=` / `operator +`: bbox.cpp:119-128, 141-146. -/
def union (a b : Bbox) : Bbox :=
  ⟨.cmin a.xmin b.xmin, .cmax a.xmax b.xmax, .cmin a.ymin b.ymin, .cmax a.ymax b.ymax,
   .cmin a.zmin b.zmin, .cmax a.zmax b.zmax⟩
/-- `Bbox::to_cgal`: bbox.cpp:130-133, the argument order of `CGAL::Bbox_3`
(xmin, ymin, zmin, xmax, ymax, zmax). -/
def toCgal (b : Bbox) : List Dbl := [b.xmin, b.ymin, b.zmin, b.xmax, b.ymax, b.zmax]
/-- `Mesh::compute_bbox`: mesh.cpp:348-359: a left fold of unions from the empty box. -/
def ofPoints (ps : List (V3 Dbl)) : Bbox := ps.foldl (fun b p => union b (ofPoint p)) empty
end Bbox

/-- A finite point seen as a point with extended coordinates. -/
def V3.toDbl (p : V3 ℚ) : V3 Dbl := ⟨.fin p.x, .fin p.y, .fin p.z⟩

end City
