import Verif.Model.Vec
import Mathlib.Tactic.Ring
import Mathlib.Tactic.Linarith
import Mathlib.Tactic.LinearCombination
import Mathlib.Tactic.FieldSimp
/-!
Properties C01 and C02: vector algebra and `normal_to`.
Statements use only the operations of the API (`add`, `sub`, `smul`, `dot`, `cross`, `determinant`, `normalTo`).
-/
namespace City.Props
open City V3

section
variable {K : Type} [CommRing K]

/-- C01: `a ^ b = -(b ^ a)`. -/
theorem C01_cross_anticomm (a b : V3 K) : cross a b = neg (cross b a) := by
  ext <;> simp only [cross, neg] <;> ring

/-- C01: `a ^ a = 0`. -/
theorem C01_cross_self (a : V3 K) : cross a a = zero := by
  ext <;> simp only [cross, zero] <;> ring

/-- C01: the cross product is orthogonal to both operands. -/
theorem C01_cross_orthogonal (a b : V3 K) : dot (cross a b) a = 0 ∧ dot (cross a b) b = 0 := by
  constructor <;> simp only [cross, dot] <;> ring

/-- C01: bilinearity of the cross product. -/
theorem C01_cross_bilinear (a b c : V3 K) (s : K) :
    cross (add a b) c = add (cross a c) (cross b c) ∧
    cross c (add a b) = add (cross c a) (cross c b) ∧
    cross (smul s a) b = smul s (cross a b) ∧
    cross a (smul s b) = smul s (cross a b) := by
  refine ⟨?_, ?_, ?_, ?_⟩ <;> ext <;> simp only [cross, add, smul] <;> ring

/-- C01: the determinant is the triple product. -/
theorem C01_det_triple (a b c : V3 K) : determinant a b c = dot (cross a b) c := by
  simp only [determinant, dot, cross]; ring

/-- C01: the determinant is alternating and invariant under cyclic permutation. -/
theorem C01_det_alternating (a b c : V3 K) :
    determinant b a c = - determinant a b c ∧ determinant a c b = - determinant a b c ∧
    determinant b c a = determinant a b c ∧ determinant a a c = 0 ∧ determinant a b b = 0 := by
  refine ⟨?_, ?_, ?_, ?_, ?_⟩ <;> simp only [determinant] <;> ring

/-- C01: translating a point by `q - p` leads to `q`, and `Vector(p,q)` is `q - p`. -/
theorem C01_point_translation (p q : V3 K) : add p (sub q p) = q ∧ vec p q = sub q p := by
  constructor
  · ext <;> simp only [add, sub] <;> ring
  · rfl

/-- C01: translations compose: `(p + u) + v = p + (u + v)`, and differences are translation invariant. -/
theorem C01_translation_compose (p q u v : V3 K) :
    add (add p u) v = add p (add u v) ∧ sub (add q u) (add p u) = sub q p := by
  constructor <;> ext <;> simp only [add, sub] <;> ring

/-- C01: Lagrange's identity `|a ^ b|² = |a|²|b|² - (a·b)²`. -/
theorem C01_lagrange (a b : V3 K) :
    dot (cross a b) (cross a b) = dot a a * dot b b - dot a b * dot a b := by
  simp only [cross, dot]; ring

omit [CommRing K] in
/-- C01: construction from a list of coordinates succeeds exactly on three coordinates. -/
theorem C01_ofList (l : List K) :
    (∀ a b c, l = [a, b, c] → ofList l = .ok ⟨a, b, c⟩) ∧
    (l.length ≠ 3 → ofList l = .thrown .logicError) := by
  constructor
  · rintro a b c rfl; rfl
  · intro h
    match l, h with
    | [], _ => rfl
    | [_], _ => rfl
    | [_, _], _ => rfl
    | [_, _, _], h => simp at h
    | _ :: _ :: _ :: _ :: _, _ => rfl
end

example : cross (⟨1, 2, 3⟩ : V3 ℤ) ⟨4, 5, 6⟩ = ⟨-3, 6, -3⟩ := by decide
example : determinant (⟨1, 2, 3⟩ : V3 ℤ) ⟨4, 5, 6⟩ ⟨7, 8, 10⟩ = -3 := by decide

/-- Three points are collinear when the cross product of the two difference vectors vanishes. -/
def Collinear3 (p q r : V3 ℝ) : Prop := cross (sub q p) (sub r q) = zero

private theorem dot_self_pos {v : V3 ℝ} (h : v ≠ zero) : 0 < dot v v := by
  by_contra hn
  apply h
  have h0 : v.x * v.x + v.y * v.y + v.z * v.z ≤ 0 := not_lt.1 hn
  have hx : v.x = 0 := by nlinarith [mul_self_nonneg v.x, mul_self_nonneg v.y, mul_self_nonneg v.z]
  have hy : v.y = 0 := by nlinarith [mul_self_nonneg v.x, mul_self_nonneg v.y, mul_self_nonneg v.z]
  have hz : v.z = 0 := by nlinarith [mul_self_nonneg v.x, mul_self_nonneg v.y, mul_self_nonneg v.z]
  ext <;> simp [hx, hy, hz, zero]

private theorem norm_pos {v : V3 ℝ} (h : v ≠ zero) : 0 < norm v := Real.sqrt_pos.2 (dot_self_pos h)

private theorem norm_sq (v : V3 ℝ) : norm v * norm v = dot v v := by
  apply Real.mul_self_sqrt
  simp only [dot]
  nlinarith [mul_self_nonneg v.x, mul_self_nonneg v.y, mul_self_nonneg v.z]

/-- C02: `normal_to` has L2 norm 1 for non collinear points. -/
theorem C02_normal_unit (p q r : V3 ℝ) (h : ¬ Collinear3 p q r) : norm (normalTo p q r) = 1 := by
  set v := cross (vec p q) (vec q r) with hv
  have hne : v ≠ zero := h
  have hpos := norm_pos hne
  have : dot (normalTo p q r) (normalTo p q r) = 1 := by
    have h2 := norm_sq v
    have : dot (normalTo p q r) (normalTo p q r) = dot v v / (norm v * norm v) := by
      simp only [normalTo, divs, dot, ← hv]
      field_simp
    rw [this, h2, div_self]
    rw [← h2]; positivity
  rw [norm, this, Real.sqrt_one]

/-- C02: `normal_to` is orthogonal to the plane of the triangle. -/
theorem C02_normal_orthogonal (p q r : V3 ℝ) :
    dot (normalTo p q r) (sub q p) = 0 ∧ dot (normalTo p q r) (sub r q) = 0 ∧
    dot (normalTo p q r) (sub r p) = 0 := by
  refine ⟨?_, ?_, ?_⟩ <;> simp only [normalTo, divs, dot, cross, vec, sub] <;> ring

/-- C02: reversing the triangle reverses the normal. -/
theorem C02_normal_reverse (p q r : V3 ℝ) : normalTo r q p = neg (normalTo p q r) := by
  have e : cross (vec r q) (vec q p) = neg (cross (vec p q) (vec q r)) := by
    ext <;> simp only [cross, vec, neg] <;> ring
  have n : norm (neg (cross (vec p q) (vec q r))) = norm (cross (vec p q) (vec q r)) := by
    unfold norm; congr 1; simp only [dot, neg]; ring
  simp only [normalTo, e, n]
  ext <;> simp only [divs, neg] <;> ring

/-- C02: the normal is the positive multiple of the cross product: the triangle is counterclockwise seen
from its tip. -/
theorem C02_normal_orientation (p q r : V3 ℝ) (h : ¬ Collinear3 p q r) :
    0 < determinant (sub q p) (sub r q) (normalTo p q r) := by
  set v := cross (vec p q) (vec q r) with hv
  have hne : v ≠ zero := h
  have hpos := norm_pos hne
  have : determinant (sub q p) (sub r q) (normalTo p q r) = dot v v / norm v := by
    rw [C01_det_triple]
    show dot v _ = _
    simp only [normalTo, divs, dot, ← hv]
    ring
  rw [this]
  exact div_pos (dot_self_pos hne) hpos

/-- C02: for collinear points the divisor of `normal_to` is zero (the code returns NaN there). -/
theorem C02_collinear_zero_divisor (p q r : V3 ℝ) :
    norm (cross (vec p q) (vec q r)) = 0 ↔ Collinear3 p q r := by
  constructor
  · intro h
    by_contra hn
    exact absurd h (ne_of_gt (norm_pos (v := cross (vec p q) (vec q r)) hn))
  · intro h
    have h' : cross (vec p q) (vec q r) = zero := h
    rw [h']; simp [norm, dot, zero]

/-- The hypothesis of C02 is met. -/
example : ¬ Collinear3 ⟨0, 0, 0⟩ ⟨1, 0, 0⟩ ⟨1, 1, 0⟩ := by
  intro h
  have := congrArg V3.z h
  simp [cross, sub, zero] at this

end City.Props
