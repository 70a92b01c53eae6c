import Mathlib.Algebra.Order.Field.Rat
import Mathlib.Algebra.Field.Rat
import Mathlib.Algebra.Order.Group.Unbundled.Abs
/-! Specification vocabulary for numbers in text. -/
namespace City.Spec

/-- A number with at most six significant decimal digits. -/
def FewDigits (x : ℚ) : Prop := ∃ (n : ℕ) (j : ℤ), n < 10 ^ 6 ∧ |x| = n * (10 : ℚ) ^ j

/-- The largest finite double. -/
def dblMax : ℚ := 2 ^ 1024 - 2 ^ 971

/-- A conversion of exact decimals to doubles: exact on small integers, relative error at most 2^-53 in the normal
range. Nothing is assumed about subnormal numbers. -/
structure IsRounding (rnd : ℚ → ℚ) : Prop where
  small_nat : ∀ n : ℕ, n ≤ 2 ^ 53 → rnd n = n
  error : ∀ v : ℚ, (2 : ℚ) ^ (-1022 : ℤ) ≤ |v| → |rnd v - v| ≤ (2 : ℚ) ^ (-53 : ℤ) * |v|

end City.Spec
