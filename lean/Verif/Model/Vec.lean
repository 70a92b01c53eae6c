import Mathlib.Algebra.Order.Field.Basic
import Mathlib.Analysis.Real.Sqrt
import Verif.Model.Out
/-
Model of /repo/src/lib/shadow/vector.cpp and /repo/src/lib/shadow/point.cpp.

Simplification: coordinates are elements of a field `K` (exact arithmetic, `ℚ` or `ℝ`) instead of IEEE
doubles. `Point` and `Vector` are both valarrays of three doubles: one type `V3` is used for both.
-/
namespace City

/-- `shadow::Point` (point.cpp:12-17) and `shadow::Vector` (vector.cpp:15-20): three coordinates. -/
@[ext] structure V3 (K : Type) where
  x : K
  y : K
  z : K
  deriving DecidableEq, Repr

namespace V3
variable {K : Type}

/-- `Point::Point(valarray)` / `Vector::Vector(valarray)`: point.cpp:21-26, vector.cpp:24-29. -/
def ofList : List K → Out (V3 K)
  | [a, b, c] => .ok ⟨a, b, c⟩
  | _ => .thrown .logicError

section Ring
variable [Ring K]

/-- `Vector::Vector(void)`: vector.cpp:15-17 (also `Point::Point(void)`, point.cpp:12-14). -/
def zero : V3 K := ⟨0, 0, 0⟩
/-- `operator +`: vector.cpp:140-143 and `Point + Vector`: point.cpp:103-106. -/
def add (a b : V3 K) : V3 K := ⟨a.x + b.x, a.y + b.y, a.z + b.z⟩
/-- `operator -`: vector.cpp:145-148; `Point - Point` point.cpp:118-121 via `Vector(origin, target)`,
vector.cpp:21-23: `lhs - rhs = Vector(rhs, lhs)`. -/
def sub (a b : V3 K) : V3 K := ⟨a.x - b.x, a.y - b.y, a.z - b.z⟩
/-- `operator *(double, Vector)`: vector.cpp:150-153. -/
def smul (s : K) (a : V3 K) : V3 K := ⟨s * a.x, s * a.y, s * a.z⟩
/-- Unary minus, used only to state laws (not in the code). -/
def neg (a : V3 K) : V3 K := ⟨-a.x, -a.y, -a.z⟩
/-- Scalar product `operator *(Vector, Vector)`: vector.cpp:160-163. -/
def dot (a b : V3 K) : K := a.x * b.x + a.y * b.y + a.z * b.z
/-- Cross product `operator ^=`: vector.cpp:118-126 (and `operator ^`, vector.cpp:165-169). -/
def cross (a b : V3 K) : V3 K :=
  ⟨a.y * b.z - a.z * b.y, a.z * b.x - a.x * b.z, a.x * b.y - a.y * b.x⟩
/-- `determinant`: vector.cpp:186-191. -/
def determinant (a b c : V3 K) : K :=
  a.x * b.y * c.z - a.x * b.z * c.y - a.y * b.x * c.z + a.y * b.z * c.x
    + a.z * b.x * c.y - a.z * b.y * c.x

/-- `Vector(origin, target)`: vector.cpp:21-23. -/
def vec (origin target : V3 K) : V3 K := ⟨target.x - origin.x, target.y - origin.y, target.z - origin.z⟩

end Ring

section Real
/-- `operator /(Vector, double)`: vector.cpp:155-158. In the code a division by zero gives NaN or
infinities; in this real model `a / 0 = 0`: statements about it must exclude a zero divisor. -/
noncomputable def divs (a : V3 ℝ) (s : ℝ) : V3 ℝ := ⟨a.x / s, a.y / s, a.z / s⟩
/-- `norm_L2`: vector.cpp:181-184. -/
noncomputable def norm (a : V3 ℝ) : ℝ := Real.sqrt (dot a a)
/-- `normal_to`: point.cpp:131-136. -/
noncomputable def normalTo (p q r : V3 ℝ) : V3 ℝ :=
  let v := cross (vec p q) (vec q r)
  divs v (norm v)
end Real

end V3
end City
