import Mathlib.Algebra.Order.Floor.Ring
import Mathlib.Data.Int.Log
import Mathlib.Data.Rat.Floor
import Mathlib.Analysis.Real.Sqrt
import Mathlib.Algebra.Order.Archimedean.Real.Basic
import Verif.Model.Bbox
/-
IEEE 754 binary64 arithmetic, as `double` is on the machines the code is compiled for (SSE2: every operation is rounded once, no contraction).
Used to model /repo/src/lib/shadow/vector.cpp, point.cpp, face.cpp and the positions computed by /repo/src/lib/projection/face_projection.cpp without idealising `double`.

Simplifications: zeros are unsigned, a division by zero is a division by +0; NaN has no payload.
-/
namespace City

section
variable {K : Type} [Field K] [LinearOrder K] [FloorRing K]

/-- The nearest integer, ties to even (IEEE 754, roundTiesToEven). -/
def rne (x : K) : ℤ :=
  if x - ⌊x⌋ < 1 / 2 then ⌊x⌋ else if 1 / 2 < x - ⌊x⌋ then ⌊x⌋ + 1 else if ⌊x⌋ % 2 = 0 then ⌊x⌋ else ⌊x⌋ + 1

/-- The exponent of the last binary digit of the double nearest to `x`: 53 digits, none below 2^-1074. -/
def lastBit (x : K) : ℤ := max (Int.log 2 |x| - 52) (-1074)

/-- The number nearest to `x` with 53 binary digits, none below 2^-1074: a double unless it is too large. -/
def fl (x : K) : ℚ := rne (x / 2 ^ lastBit x) * 2 ^ lastBit x

/-- Rounding of an exact result: roundTiesToEven with overflow to an infinity. -/
def Dbl.ofExact (x : K) : Dbl := if 2 ^ 1024 ≤ fl x then .pinf else if fl x ≤ -2 ^ 1024 then .ninf else .fin (fl x)
end

namespace Dbl

/-- Unary minus. -/
def neg : Dbl → Dbl
  | nan => nan
  | ninf => pinf
  | fin q => fin (-q)
  | pinf => ninf

/-- IEEE addition. -/
def add : Dbl → Dbl → Dbl
  | nan, _ => nan
  | _, nan => nan
  | pinf, ninf => nan
  | ninf, pinf => nan
  | pinf, _ => pinf
  | ninf, _ => ninf
  | _, pinf => pinf
  | _, ninf => ninf
  | fin a, fin b => ofExact (a + b)

/-- IEEE subtraction. -/
def sub (a b : Dbl) : Dbl := add a (neg b)

/-- An infinity with the sign of `q`; NaN for zero. -/
def infOf (q : ℚ) : Dbl := if 0 < q then pinf else if q < 0 then ninf else nan

/-- IEEE multiplication. -/
def mul : Dbl → Dbl → Dbl
  | nan, _ => nan
  | _, nan => nan
  | fin a, fin b => ofExact (a * b)
  | pinf, fin b => infOf b
  | ninf, fin b => infOf (-b)
  | fin a, pinf => infOf a
  | fin a, ninf => infOf (-a)
  | pinf, pinf => pinf
  | ninf, ninf => pinf
  | pinf, ninf => ninf
  | ninf, pinf => ninf

/-- IEEE division; zeros are positive. -/
def div : Dbl → Dbl → Dbl
  | nan, _ => nan
  | _, nan => nan
  | fin a, fin b => if b = 0 then infOf a else ofExact (a / b)
  | fin _, _ => fin 0
  | pinf, fin b => if b < 0 then ninf else pinf
  | ninf, fin b => if b < 0 then pinf else ninf
  | _, _ => nan

/-- `std::sqrt`: correctly rounded. -/
noncomputable def sqrt : Dbl → Dbl
  | nan => nan
  | ninf => nan
  | pinf => pinf
  | fin q => if q < 0 then nan else ofExact (Real.sqrt (q : ℝ))

end Dbl
end City
