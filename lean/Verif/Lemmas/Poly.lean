import Verif.Spec.Poly
import Mathlib.Tactic.Ring
import Mathlib.Tactic.LinearCombination
import Mathlib.Tactic.FieldSimp
import Mathlib.Tactic.Linarith
import Mathlib.Algebra.BigOperators.Group.List.Basic
import Mathlib.Algebra.Order.Ring.Abs
import Mathlib.Algebra.Order.Field.Basic
/-! Lemmas on polygons and planes. -/
namespace City
open Spec
variable {K : Type} [Field K] [LinearOrder K] [IsStrictOrderedRing K]

/-- The edge term of the shoelace formula. -/
def det2 (p q : V2 K) : K := p.x * q.y - q.x * p.y

/-- Shoelace sum along an open path. -/
def pathSum : Poly K → K
  | p :: q :: t => det2 p q + pathSum (q :: t)
  | _ => 0

/-- The last point of a path. -/
def lastV (p : V2 K) : Poly K → V2 K
  | [] => p
  | q :: t => lastV q t

theorem lastV_snoc (p : V2 K) (t : Poly K) (a : V2 K) : lastV p (t ++ [a]) = a := by
  induction t generalizing p with
  | nil => rfl
  | cons q t ih => exact ih q

theorem zip_path (a : V2 K) : ∀ (p : V2 K) (t : Poly K), (((p :: t).zip (t ++ [a])).map fun e => e.1.x * e.2.y - e.2.x * e.1.y).sum =
    pathSum (p :: t) + det2 (lastV p t) a := by
  intro p t
  induction t generalizing p with
  | nil => simp [pathSum, det2, lastV]
  | cons q t ih =>
    have := ih q
    rw [List.cons_append, List.zip_cons_cons, List.map_cons, List.sum_cons, this]
    simp only [pathSum, det2, lastV]
    ring

theorem shoelace_cons (p : V2 K) (t : Poly K) : shoelace (p :: t) = pathSum (p :: t) + det2 (lastV p t) p := by
  unfold shoelace boundary
  exact zip_path p p t

theorem fan_path (p : V2 K) : ∀ (q : V2 K) (t : Poly K), 2 * fanArea p (q :: t) =
    pathSum (q :: t) + det2 p q + det2 (lastV q t) p := by
  intro q t
  induction t generalizing q with
  | nil => simp [fanArea, pathSum, det2, lastV]
  | cons r t ih =>
    have := ih r
    rw [fanArea, mul_add, this]
    simp only [pathSum, det2, triArea, lastV]
    ring

/-- CGAL's area is half the shoelace sum. -/
theorem polyArea_eq (p : Poly K) : 2 * polyArea p = shoelace p := by
  match p with
  | [] => simp [polyArea, shoelace, boundary]
  | [a] => simp [polyArea, fanArea, shoelace, boundary, mul_comm]
  | a :: b :: t =>
    rw [polyArea, fan_path, shoelace_cons]
    simp only [pathSum, lastV]
    ring

theorem pathSum_snoc (p : V2 K) (t : Poly K) (a : V2 K) :
    pathSum (p :: (t ++ [a])) = pathSum (p :: t) + det2 (lastV p t) a := by
  induction t generalizing p with
  | nil => simp [pathSum, lastV]
  | cons q t ih =>
    have := ih q
    rw [List.cons_append, pathSum, this]
    simp only [pathSum, lastV]
    ring

theorem shoelace_rotate_one (p : V2 K) (t : Poly K) : shoelace (t ++ [p]) = shoelace (p :: t) := by
  cases t with
  | nil => rfl
  | cons q t =>
    rw [List.cons_append, shoelace_cons, shoelace_cons, pathSum_snoc, lastV_snoc]
    simp only [pathSum, lastV]
    ring

theorem shoelace_rotate (l : Poly K) (n : Nat) : shoelace (l.rotate n) = shoelace l := by
  induction n generalizing l with
  | zero => simp
  | succ n ih =>
    cases l with
    | nil => simp
    | cons a t => rw [List.rotate_cons_succ, ih, shoelace_rotate_one]

theorem shoelace_isRotated {l m : Poly K} (h : l ~r m) : shoelace l = shoelace m := by
  obtain ⟨n, rfl⟩ := h
  rw [shoelace_rotate]

theorem pathSum_append (s : Poly K) (a b : V2 K) (t : Poly K) :
    pathSum (s ++ [a] ++ b :: t) = pathSum (s ++ [a]) + det2 a b + pathSum (b :: t) := by
  induction s with
  | nil => simp [pathSum]
  | cons c s ih =>
    cases s with
    | nil => simp [pathSum, add_assoc]
    | cons d s =>
      simp only [List.cons_append, pathSum] at ih ⊢
      rw [ih]; ring

theorem pathSum_reverse (l : Poly K) : pathSum l.reverse = - pathSum l := by
  induction l with
  | nil => simp [pathSum]
  | cons a t ih =>
    cases t with
    | nil => simp [pathSum]
    | cons b t =>
      rw [List.reverse_cons, List.reverse_cons]
      have := pathSum_append t.reverse b a []
      rw [this]
      rw [List.reverse_cons] at ih
      rw [ih]
      simp only [pathSum, det2]
      ring

theorem lastV_eq (p : V2 K) (t : Poly K) : some (lastV p t) = (p :: t).getLast? := by
  induction t generalizing p with
  | nil => rfl
  | cons q t ih => rw [lastV, ih, List.getLast?_cons_cons]

theorem shoelace_reverse (l : Poly K) : shoelace l.reverse = - shoelace l := by
  match l with
  | [] => simp [shoelace, boundary]
  | [a] => simp [shoelace, boundary, mul_comm]
  | a :: b :: t =>
    have h1 : (a :: b :: t).reverse = (b :: t).reverse ++ [a] := by simp
    rw [h1, shoelace_rotate_one]
    obtain ⟨c, u, hc⟩ : ∃ c u, (b :: t).reverse = c :: u := by
      cases h : (b :: t).reverse with
      | nil => simp at h
      | cons c u => exact ⟨c, u, rfl⟩
    have hl : lastV b t = c := by
      have := lastV_eq b t
      have h2 : (b :: t) = (c :: u).reverse := by rw [← hc, List.reverse_reverse]
      rw [h2] at this
      simpa using this
    have hl2 : lastV c u = b := by
      have := lastV_eq c u
      rw [← hc] at this
      simpa using this
    have h3 : pathSum (c :: u) = - pathSum (b :: t) := by rw [← hc, pathSum_reverse]
    rw [hc, shoelace_cons, shoelace_cons]
    simp only [pathSum, lastV]
    rw [h3, hl, hl2]
    simp only [det2]
    ring

theorem polyArea_reverseOrientation (l : Poly K) : polyArea (reverseOrientation l) = - polyArea l := by
  have h : shoelace (reverseOrientation l) = - shoelace l := by
    cases l with
    | nil => simp [reverseOrientation, shoelace, boundary]
    | cons a t =>
      rw [reverseOrientation, ← shoelace_rotate_one, ← List.reverse_cons, shoelace_reverse]
  have h1 := polyArea_eq (reverseOrientation l)
  have h2 := polyArea_eq l
  have : (2 : K) * (polyArea (reverseOrientation l) + polyArea l) = 0 := by rw [mul_add, h1, h2, h]; ring
  have h3 := (mul_eq_zero.1 this).resolve_left two_ne_zero
  linear_combination h3

theorem polyArea_isRotated {l m : Poly K} (h : l ~r m) : polyArea l = polyArea m := by
  have h1 := polyArea_eq l
  have h2 := polyArea_eq m
  have := shoelace_isRotated h
  have h3 : (2 : K) * polyArea l = 2 * polyArea m := by rw [h1, h2, this]
  exact mul_left_cancel₀ two_ne_zero h3

theorem fanArea_shift (v p : V2 K) (t : Poly K) : fanArea (shift v p) (t.map (shift v)) = fanArea p t := by
  match t with
  | [] => simp [fanArea]
  | [q] => simp [fanArea]
  | q :: r :: t =>
    have := fanArea_shift v p (r :: t)
    simp only [List.map_cons, fanArea] at this ⊢
    rw [this]
    simp only [triArea, shift]
    ring

theorem polyArea_shift (v : V2 K) (l : Poly K) : polyArea (l.map (shift v)) = polyArea l := by
  cases l with
  | nil => rfl
  | cons p t => exact fanArea_shift v p t

/-! ### Planes -/

theorem sgn_eq_zero {x : K} : sgn x = 0 ↔ x = 0 := by
  unfold sgn
  rcases lt_trichotomy x 0 with h | h | h
  · simp [h, not_lt.2 h.le, h.ne]
  · simp [h]
  · simp [h, h.ne']

theorem sgn_mul_pos {k x : K} (hk : 0 < k) : sgn (k * x) = sgn x := by
  unfold sgn
  rcases lt_trichotomy x 0 with h | h | h
  · have : k * x < 0 := mul_neg_of_pos_of_neg hk h
    simp [h, this, not_lt.2 h.le, not_lt.2 this.le]
  · simp [h]
  · have : 0 < k * x := mul_pos hk h
    simp [h, this]

theorem sgn_eq_pos_div {x y : K} (h : sgn x = sgn y) (hx : x ≠ 0) : 0 < y / x := by
  unfold sgn at h
  rcases lt_trichotomy x 0 with h1 | h1 | h1
  · rcases lt_trichotomy y 0 with h2 | h2 | h2
    · exact div_pos_of_neg_of_neg h2 h1
    · simp [h1, h2, not_lt.2 h1.le] at h
    · simp [h1, h2, not_lt.2 h1.le] at h
  · exact absurd h1 hx
  · rcases lt_trichotomy y 0 with h2 | h2 | h2
    · simp [h1, h2, not_lt.2 h2.le] at h
    · simp [h1, h2] at h
    · exact div_pos h2 h1

theorem planeEq_iff (p q : Plane K) : planeEq p q = true ↔ (NoNormal p ∧ NoNormal q) ∨ (¬ NoNormal p ∧ SamePlane p q) := by
  constructor
  · intro h
    unfold planeEq at h
    simp only [Bool.and_eq_true, beq_iff_eq, decide_eq_true_eq] at h
    obtain ⟨⟨⟨⟨⟨⟨ha, hb⟩, hc⟩, hab⟩, hac⟩, hbc⟩, hd⟩ := h
    by_cases h1 : p.a = 0
    · have hqa : q.a = 0 := by rw [← sgn_eq_zero, ← ha, sgn_eq_zero]; exact h1
      by_cases h2 : p.b = 0
      · have hqb : q.b = 0 := by rw [← sgn_eq_zero, ← hb, sgn_eq_zero]; exact h2
        by_cases h3 : p.c = 0
        · have hqc : q.c = 0 := by rw [← sgn_eq_zero, ← hc, sgn_eq_zero]; exact h3
          exact Or.inl ⟨⟨h1, h2, h3⟩, ⟨hqa, hqb, hqc⟩⟩
        · rw [if_neg (by rw [not_not, sgn_eq_zero]; exact h1), if_neg (by rw [not_not, sgn_eq_zero]; exact h2),
            decide_eq_true_eq] at hd
          refine Or.inr ⟨fun h => h3 h.2.2, q.c / p.c, sgn_eq_pos_div hc h3, ?_⟩
          ext
          · simp [h1, hqa]
          · simp [h2, hqb]
          · simp only; field_simp
          · simp only; field_simp; linear_combination hd
      · rw [if_neg (by rw [not_not, sgn_eq_zero]; exact h1), if_pos (by rw [Ne, sgn_eq_zero]; exact h2),
          decide_eq_true_eq] at hd
        refine Or.inr ⟨fun h => h2 h.2.1, q.b / p.b, sgn_eq_pos_div hb h2, ?_⟩
        ext
        · simp [h1, hqa]
        · simp only; field_simp
        · simp only; field_simp; linear_combination hbc
        · simp only; field_simp; linear_combination hd
    · rw [if_pos (by rw [Ne, sgn_eq_zero]; exact h1), decide_eq_true_eq] at hd
      refine Or.inr ⟨fun h => h1 h.1, q.a / p.a, sgn_eq_pos_div ha h1, ?_⟩
      ext
      · simp only; field_simp
      · simp only; field_simp; linear_combination hab
      · simp only; field_simp; linear_combination hac
      · simp only; field_simp; linear_combination hd
  · rintro (⟨⟨h1, h2, h3⟩, h4, h5, h6⟩ | ⟨_, k, hk, rfl⟩)
    · simp [planeEq, h1, h2, h3, h4, h5, h6]
    · unfold planeEq
      simp only [sgn_mul_pos hk, beq_self_eq_true, Bool.true_and, Bool.and_eq_true, decide_eq_true_eq]
      refine ⟨⟨⟨by ring, by ring⟩, by ring⟩, ?_⟩
      split
      · rw [decide_eq_true_eq]; ring
      · split
        · rw [decide_eq_true_eq]; ring
        · rw [decide_eq_true_eq]; ring

theorem onPlane_planeThrough (p q r : V3 K) :
    OnPlane (planeThrough p q r) p.x p.y p.z ∧ OnPlane (planeThrough p q r) q.x q.y q.z ∧ OnPlane (planeThrough p q r) r.x r.y r.z := by
  unfold OnPlane planeThrough
  refine ⟨?_, ?_, ?_⟩ <;> ring

/-- A point of a plane through three points is on the plane made from them. -/
theorem planeThrough_spec (p q r s : V3 K) (n : Plane K) (hn : ¬ NoNormal n) (hp : OnPlane n p.x p.y p.z) (hq : OnPlane n q.x q.y q.z)
    (hr : OnPlane n r.x r.y r.z) (hs : OnPlane n s.x s.y s.z) : OnPlane (planeThrough p q r) s.x s.y s.z := by
  unfold OnPlane planeThrough NoNormal at *
  simp only
  set A := (p.y - r.y) * (q.z - r.z) - (q.y - r.y) * (p.z - r.z)
  set B := (p.z - r.z) * (q.x - r.x) - (q.z - r.z) * (p.x - r.x)
  set D := (p.x - r.x) * (q.y - r.y) - (q.x - r.x) * (p.y - r.y)
  have e1 : n.a * (p.x - r.x) + n.b * (p.y - r.y) + n.c * (p.z - r.z) = 0 := by linear_combination hp - hr
  have e2 : n.a * (q.x - r.x) + n.b * (q.y - r.y) + n.c * (q.z - r.z) = 0 := by linear_combination hq - hr
  have e3 : n.a * (s.x - r.x) + n.b * (s.y - r.y) + n.c * (s.z - r.z) = 0 := by linear_combination hs - hr
  have goal : ∀ t : K, (t = n.a ∨ t = n.b ∨ t = n.c) → t * (A * (s.x - r.x) + B * (s.y - r.y) + D * (s.z - r.z)) = 0 := by
    intro t ht
    rcases ht with rfl | rfl | rfl
    · simp only [A, B, D]
      linear_combination ((p.y - r.y) * (q.z - r.z) - (q.y - r.y) * (p.z - r.z)) * e3
        + ((q.y - r.y) * (s.z - r.z) - (s.y - r.y) * (q.z - r.z)) * e1
        + ((s.y - r.y) * (p.z - r.z) - (p.y - r.y) * (s.z - r.z)) * e2
    · simp only [A, B, D]
      linear_combination ((p.z - r.z) * (q.x - r.x) - (q.z - r.z) * (p.x - r.x)) * e3
        + ((q.z - r.z) * (s.x - r.x) - (s.z - r.z) * (q.x - r.x)) * e1
        + ((s.z - r.z) * (p.x - r.x) - (p.z - r.z) * (s.x - r.x)) * e2
    · simp only [A, B, D]
      linear_combination ((p.x - r.x) * (q.y - r.y) - (q.x - r.x) * (p.y - r.y)) * e3
        + ((q.x - r.x) * (s.y - r.y) - (s.x - r.x) * (q.y - r.y)) * e1
        + ((s.x - r.x) * (p.y - r.y) - (p.x - r.x) * (s.y - r.y)) * e2
  have key : A * (s.x - r.x) + B * (s.y - r.y) + D * (s.z - r.z) = 0 := by
    by_contra hne
    apply hn
    refine ⟨?_, ?_, ?_⟩
    · exact (mul_eq_zero.1 (goal _ (Or.inl rfl))).resolve_right hne
    · exact (mul_eq_zero.1 (goal _ (Or.inr (Or.inl rfl)))).resolve_right hne
    · exact (mul_eq_zero.1 (goal _ (Or.inr (Or.inr rfl)))).resolve_right hne
  linear_combination key

end City
