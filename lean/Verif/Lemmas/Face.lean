import Verif.Spec.Face
import Mathlib.Tactic.Ring
import Mathlib.Tactic.Linarith
import Mathlib.Tactic.LinearCombination
import Mathlib.Algebra.Order.Field.Basic
namespace City
open Spec

/-! ### boundaries -/

theorem zip_tail_reverse {α : Type} (l : List α) :
    l.reverse.zip l.reverse.tail = ((l.zip l.tail).map Prod.swap).reverse := by
  induction l with
  | nil => rfl
  | cons a l ih =>
    cases l with
    | nil => rfl
    | cons b l =>
      have h : ∀ (x : List α), (x ++ [b, a]).zip (x ++ [b, a]).tail
          = (x ++ [b]).zip (x ++ [b]).tail ++ [(b, a)] := by
        intro x
        induction x with
        | nil => rfl
        | cons c x ihx =>
          cases x with
          | nil => rfl
          | cons d x => simpa using ihx
      have e1 : (a :: b :: l).reverse = l.reverse ++ [b, a] := by simp
      have e2 : (b :: l).reverse = l.reverse ++ [b] := by simp
      rw [e1, h, ← e2, ih]
      simp

theorem boundary_eq_zip_tail {α : Type} (a : α) (t : List α) :
    boundary (a :: t) = (a :: t ++ [a]).zip (a :: t ++ [a]).tail := by
  have : ∀ (x : List α) (y : α), (x ++ [y]).zip (x ++ [y]).tail = x.zip (x ++ [y]).tail := by
    intro x y
    induction x with
    | nil => rfl
    | cons c x ih =>
      cases x with
      | nil => rfl
      | cons d x => simpa using ih
  rw [this]; rfl

theorem boundary_reverse {α : Type} (a : α) (t : List α) :
    boundary (a :: t.reverse) = ((boundary (a :: t)).map Prod.swap).reverse := by
  rw [boundary_eq_zip_tail, boundary_eq_zip_tail, ← zip_tail_reverse]
  simp

theorem boundary_eq_zip_rotate {α : Type} (l : List α) : boundary l = l.zip (l.rotate 1) := by
  cases l with
  | nil => rfl
  | cons a t => simp [boundary]

theorem zip_rotate_one {α β : Type} (l : List α) (m : List β) (h : l.length = m.length) :
    (l.zip m).rotate 1 = (l.rotate 1).zip (m.rotate 1) := by
  cases l with
  | nil => cases m <;> simp_all
  | cons a l =>
    cases m with
    | nil => simp at h
    | cons b m =>
      simp at h
      simp [List.zip_append h]

theorem boundary_rotate_one {α : Type} (l : List α) : boundary (l.rotate 1) = (boundary l).rotate 1 := by
  rw [boundary_eq_zip_rotate, boundary_eq_zip_rotate, zip_rotate_one _ _ (by simp)]

theorem boundary_rotate {α : Type} (l : List α) (n : Nat) :
    boundary (l.rotate n) = (boundary l).rotate n := by
  induction n with
  | zero => simp
  | succ n ih => rw [← List.rotate_rotate, boundary_rotate_one, ih, List.rotate_rotate]

/-! ### equality -/

theorem eqFrom_iff {a : Nat} {l r : List Nat} :
    Face.eqFrom a l r = true ↔ a ∈ r ∧ l = r.rotate (r.idxOf a) := by
  have e : r.findIdx (· == a) = r.idxOf a := rfl
  unfold Face.eqFrom
  simp only [e]
  split
  · rename_i h
    rw [List.rotate_eq_drop_append_take (Nat.le_of_lt h)]
    simp [List.idxOf_lt_length_iff.1 h]
  · rename_i h
    simp only [Bool.false_eq_true, false_iff, not_and]
    intro hm
    exact absurd (List.idxOf_lt_length_iff.2 hm) h

theorem face_eq_true_iff {f g : Face} :
    Face.eq f g = .ok true ↔
      ∃ a, f.points.head? = some a ∧ a ∈ g.points ∧ f.points = g.points.rotate (g.points.idxOf a) := by
  unfold Face.eq
  split
  · rename_i h
    split
    · rename_i h0; simp [h0]
    · rename_i a t h0
      rw [Out.ok.injEq, eqFrom_iff]
      simp [h0]
  · rename_i h
    simp only [Out.ok.injEq, Bool.false_eq_true, false_iff, not_exists, not_and]
    intro a _ _ hr
    exact h (by rw [hr]; simp)

theorem face_eq_isRotated {f g : Face} (h : Face.eq f g = .ok true) : f.points ~r g.points := by
  obtain ⟨a, _, _, h⟩ := face_eq_true_iff.1 h
  rw [h]
  exact (List.IsRotated.forall g.points _)

theorem face_eq_of_isRotated {f g : Face} (hne : f.points ≠ []) (hn : g.points.Nodup)
    (h : f.points ~r g.points) : Face.eq f g = .ok true := by
  rw [face_eq_true_iff]
  obtain ⟨n, hlt, hr⟩ := List.isRotated_iff_mod.1 h.symm
  by_cases hnl : n = g.points.length
  · subst hnl
    rw [List.rotate_length] at hr
    cases hf : f.points with
    | nil => exact absurd hf hne
    | cons a t =>
      refine ⟨a, rfl, by rw [hr, hf]; simp, ?_⟩
      rw [hr, hf]; simp
  · have hlt' : n < g.points.length := Nat.lt_of_le_of_ne hlt hnl
    refine ⟨g.points[n], ?_, List.getElem_mem _, ?_⟩
    · rw [← hr, List.head?_rotate hlt']; simp [hlt']
    · rw [hn.idxOf_getElem n hlt', hr]

theorem face_eq_ok {f g : Face} (hne : f.points ≠ []) : ∃ b, Face.eq f g = .ok b := by
  unfold Face.eq
  split
  · split
    · contradiction
    · exact ⟨_, rfl⟩
  · exact ⟨_, rfl⟩

end City
