import Verif.Lemmas.Convex
import Verif.Spec.Fan
set_option linter.unusedSectionVars false
namespace City.Spec
open City V3

/-- The fan triangles of the polygon `a :: t`. -/
def fan {α : Type} (a : α) (t : List α) : List (List α) := (t.zip t.tail).map fun e => [a, e.1, e.2]

/-- The inner edges of the fan: from the apex to the third, ..., last but one vertices. -/
def spokes {α : Type} (a : α) (t : List α) : List (α × α) := (t.tail.dropLast).map fun x => (a, x)

theorem path_edges {α : Type} (a c : α) (t : List α) :
    boundary (a :: c :: t) = (a, c) :: (boundary (a :: c :: t)).tail := by
  simp [boundary]

theorem boundary_cons_cons {α : Type} (a b c : α) (t : List α) :
    boundary (a :: b :: c :: t) = (a, b) :: (b, c) :: (boundary (a :: c :: t)).tail := by
  simp [boundary]

theorem fan_edges {α : Type} [DecidableEq α] (a b c : α) (t : List α) :
    ((fan a (b :: c :: t)).flatMap boundary).Perm
      (boundary (a :: b :: c :: t) ++ (spokes a (b :: c :: t) ++ (spokes a (b :: c :: t)).map Prod.swap)) := by
  induction t generalizing b c with
  | nil => simp [fan, spokes, boundary]
  | cons d t ih =>
    have ih' := ih c d
    rw [List.perm_iff_count] at ih' ⊢
    intro e
    have := ih' e
    have e1 : fan a (b :: c :: d :: t) = [a, b, c] :: fan a (c :: d :: t) := by simp [fan]
    have e2 : spokes a (b :: c :: d :: t) = (a, c) :: spokes a (c :: d :: t) := by simp [spokes]
    have e3 : boundary [a, b, c] = [(a, b), (b, c), (c, a)] := by simp [boundary]
    rw [e1, e2, List.flatMap_cons, List.count_append, this, e3, boundary_cons_cons a b c (d :: t),
      path_edges a c (d :: t)]
    simp only [List.count_append, List.count_cons, List.map_cons, List.count_nil, Prod.swap_prod_mk,
      List.tail_cons]
    omega

section
variable {K : Type} [CommRing K]

theorem add_comm' (a b : V3 K) : add a b = add b a := by ext <;> simp only [add] <;> ring
theorem add_assoc' (a b c : V3 K) : add (add a b) c = add a (add b c) := by
  ext <;> simp only [add] <;> ring
theorem add_zero' (a : V3 K) : add a zero = a := by ext <;> simp [add, zero]
theorem zero_add' (a : V3 K) : add zero a = a := by ext <;> simp [add, zero]

theorem vsum_append (l m : List (V3 K)) : vsum (l ++ m) = add (vsum l) (vsum m) := by
  induction l with
  | nil => simp [vsum, zero_add']
  | cons a l ih =>
    have h1 : vsum (a :: (l ++ m)) = add a (vsum (l ++ m)) := rfl
    have h2 : vsum (a :: l) = add a (vsum l) := rfl
    rw [List.cons_append, h1, h2, ih, add_assoc']

theorem vsum_perm {l m : List (V3 K)} (h : l.Perm m) : vsum l = vsum m := by
  induction h with
  | nil => rfl
  | cons x _ ih => show add x _ = add x _; rw [show List.foldr add zero _ = _ from ih]; rfl
  | swap x y l =>
    show add y (add x _) = add x (add y _)
    rw [← add_assoc', ← add_assoc', add_comm' x y]
  | trans _ _ ih1 ih2 => exact ih1.trans ih2

theorem vsum_cancel (l : List (V3 K × V3 K)) :
    vsum ((l ++ l.map Prod.swap).map fun e => cross e.1 e.2) = zero := by
  induction l with
  | nil => rfl
  | cons a l ih =>
    rw [List.map_append, vsum_append] at ih ⊢
    have h1 : vsum ((a :: l).map fun e => cross e.1 e.2) = add (cross a.1 a.2) (vsum (l.map fun e => cross e.1 e.2)) := rfl
    have h2 : vsum ((List.map Prod.swap (a :: l)).map fun e => cross e.1 e.2)
      = add (cross a.2 a.1) (vsum ((l.map Prod.swap).map fun e => cross e.1 e.2)) := rfl
    rw [h1, h2]
    clear h1 h2
    generalize vsum (l.map fun e => cross e.1 e.2) = u at *
    generalize vsum ((l.map Prod.swap).map fun e => cross e.1 e.2) = w at *
    have hx := congrArg V3.x ih; have hy := congrArg V3.y ih; have hz := congrArg V3.z ih
    simp only [add, zero] at hx hy hz
    ext <;> simp only [add, cross, zero]
    · linear_combination hx
    · linear_combination hy
    · linear_combination hz

theorem vsum_flatMap {α : Type} (g : α → List (V3 K)) (l : List α) :
    vsum (l.flatMap g) = vsum (l.map fun x => vsum (g x)) := by
  induction l with
  | nil => rfl
  | cons a l ih =>
    rw [List.flatMap_cons, vsum_append, ih]; rfl

theorem fan_area [DecidableEq K] (a b c : V3 K) (t : List (V3 K)) :
    vsum ((fan a (b :: c :: t)).map vectorArea2) = vectorArea2 (a :: b :: c :: t) := by
  have h := (fan_edges a b c t).map fun e => cross e.1 e.2
  have h' := vsum_perm h
  rw [List.map_flatMap, vsum_flatMap] at h'
  rw [List.map_append, vsum_append, vsum_cancel, add_zero'] at h'
  exact h'
end

theorem isConvex_defined {K : Type} [Field K] [LinearOrder K] (f : Face) (co : List (V3 K)) :
    Face.isConvex f co ≠ .ub := by
  have loop : ∀ (n : V3 K) ts, Face.convexLoop co n ts ≠ .ub := by
    intro n ts
    induction ts with
    | nil => simp [Face.convexLoop]
    | cons t ts ih =>
      rw [Face.convexLoop]
      intro h
      rcases Out.bind_eq_ub.1 h with h | ⟨b, -, h⟩
      · unfold Face.turnOk at h
        simp only [Out.bind_eq_ub, Out.atOr_ne_ub, false_or, reduceCtorEq, and_false, exists_false] at h
      · split at h
        · exact ih h
        · cases h
  unfold Face.isConvex
  simp only
  split
  · simp
  · split
    · simp
    · split
      · intro h
        simp only [Out.bind_eq_ub, Out.atOr_ne_ub, false_or, loop, and_false, exists_false] at h
      · simp

end City.Spec
