import Verif.Model.Float
/-
Model of /repo/src/lib/shadow/vector.cpp and /repo/src/lib/shadow/point.cpp on IEEE doubles: every operation is rounded (Model/Float.lean), expressions are evaluated as written, without
contraction to fused multiply-add. Zeros are unsigned.
-/
namespace City

namespace Dbl
/-- `==` of doubles: NaN differs from everything. -/
def eq : Dbl → Dbl → Bool
  | nan, _ => false
  | _, nan => false
  | a, b => decide (a = b)
end Dbl

/-- The order in which `valarray::sum` adds three numbers; the standard leaves it open. -/
inductive SumOrder
  | xyz | zyx | xzy
  deriving DecidableEq, Repr

/-- `valarray::sum` of three doubles. -/
def SumOrder.sum : SumOrder → Dbl → Dbl → Dbl → Dbl
  | xyz, a, b, c => (a.add b).add c
  | zyx, a, b, c => (c.add b).add a
  | xzy, a, b, c => (a.add c).add b

namespace V3

/-- `operator +`: vector.cpp:140-143, `+=`: vector.cpp:91-95, `Point + Vector`: point.cpp:103-106. -/
def addD (a b : V3 Dbl) : V3 Dbl := ⟨a.x.add b.x, a.y.add b.y, a.z.add b.z⟩

/-- `operator -`: vector.cpp:145-148, `-=`: vector.cpp:109-113; `Point - Point`: point.cpp:118-121. -/
def subD (a b : V3 Dbl) : V3 Dbl := ⟨a.x.sub b.x, a.y.sub b.y, a.z.sub b.z⟩

/-- `Vector(origin, target)`: vector.cpp:21-23. -/
def vecD (origin target : V3 Dbl) : V3 Dbl := ⟨target.x.sub origin.x, target.y.sub origin.y, target.z.sub origin.z⟩

/-- `operator *(double, Vector)`: vector.cpp:150-153. -/
def smulD (s : Dbl) (a : V3 Dbl) : V3 Dbl := ⟨s.mul a.x, s.mul a.y, s.mul a.z⟩

/-- `operator /(Vector, double)`: vector.cpp:155-158. -/
def divsD (a : V3 Dbl) (s : Dbl) : V3 Dbl := ⟨a.x.div s, a.y.div s, a.z.div s⟩

/-- The opposite of a vector, used only to state laws (not in the code). -/
def negD (a : V3 Dbl) : V3 Dbl := ⟨a.x.neg, a.y.neg, a.z.neg⟩

/-- `operator *(Vector, Vector)`: vector.cpp:160-163. -/
def dotD (o : SumOrder) (a b : V3 Dbl) : Dbl := o.sum (a.x.mul b.x) (a.y.mul b.y) (a.z.mul b.z)

/-- `operator ^=`, `operator ^`: vector.cpp:115-123, 165-169. -/
def crossD (a b : V3 Dbl) : V3 Dbl :=
  ⟨(a.y.mul b.z).sub (a.z.mul b.y), (a.z.mul b.x).sub (a.x.mul b.z), (a.x.mul b.y).sub (a.y.mul b.x)⟩

/-- `determinant`: vector.cpp:186-191, from left to right. -/
def determinantD (a b c : V3 Dbl) : Dbl :=
  ((((((a.x.mul b.y).mul c.z).sub ((a.x.mul b.z).mul c.y)).sub ((a.y.mul b.x).mul c.z)).add ((a.y.mul b.z).mul c.x)).add
    ((a.z.mul b.x).mul c.y)).sub ((a.z.mul b.y).mul c.x)

/-- `operator ==`: vector.cpp:133-136, point.cpp:107-110. -/
def eqD (a b : V3 Dbl) : Bool := a.x.eq b.x && a.y.eq b.y && a.z.eq b.z

/-- `norm_L2`: vector.cpp:181-184. -/
noncomputable def normD (o : SumOrder) (a : V3 Dbl) : Dbl := (dotD o a a).sqrt

/-- `normal_to`: point.cpp:131-136. -/
noncomputable def normalToD (o : SumOrder) (p q r : V3 Dbl) : V3 Dbl :=
  (crossD (vecD p q) (vecD q r)).divsD (normD o (crossD (vecD p q) (vecD q r)))

end V3
end City
