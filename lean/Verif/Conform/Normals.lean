import Verif.Conform.Shadow
import Verif.Lemmas.SqrtCert
/-!
The tests of the project which need `normal_to`, hence a square root: test_shadow_geometry.cpp:114-132, test_shadow_face.cpp:139-155, test_shadow_mesh.cpp:62-88.
-/
namespace City.Conform
open City

/-- Lower bound of the square root, with 160 binary digits after the point. -/
def low (q : ℚ) : ℚ := (Nat.sqrt (⌊q * 2 ^ 320⌋).toNat : ℚ) / 2 ^ 160
/-- Upper bound. -/
def high (q : ℚ) : ℚ := low q + 1 / 2 ^ 160

/-- The square root of a number which is between two bounds of the same double. -/
def root (q : ℚ) : Option Dbl := if 0 ≤ low q ∧ low q * low q ≤ q ∧ q ≤ high q * high q ∧ fl (low q) = fl (high q) then some (.ofExact (low q)) else none

theorem root_eq {q : ℚ} {d : Dbl} (h : root q = some d) : Dbl.sqrt (.fin q) = d := by
  unfold root at h
  split at h
  · rename_i c
    injection h with h
    rw [← h]
    exact sqrt_cert c.1 (by unfold high; have := c.1; positivity) c.2.1 c.2.2.1 c.2.2.2
  · cases h

/-- The length of a vector of doubles, computed. -/
def lengthC (o : SumOrder) (v : V3 Dbl) : Option Dbl := match V3.dotD o v v with | .fin q => root q | _ => none

theorem lengthC_eq {o : SumOrder} {v : V3 Dbl} {d : Dbl} (h : lengthC o v = some d) : V3.normD o v = d := by
  unfold lengthC at h
  unfold V3.normD
  split at h
  · rename_i q e; rw [e]; exact root_eq h
  · cases h

/-- `normal_to`, computed. -/
def normalC (o : SumOrder) (A B C : V3 Dbl) : Option (V3 Dbl) :=
  (lengthC o (V3.crossD (V3.vecD A B) (V3.vecD B C))).map fun d => V3.divsD (V3.crossD (V3.vecD A B) (V3.vecD B C)) d

theorem normalC_eq {o : SumOrder} {A B C n : V3 Dbl} (h : normalC o A B C = some n) : V3.normalToD o A B C = n := by
  unfold normalC at h
  cases e : lengthC o (V3.crossD (V3.vecD A B) (V3.vecD B C)) with
  | none => rw [e] at h; cases h
  | some d =>
    rw [e] at h
    injection h with h
    rw [← h]
    show V3.divsD _ (V3.normD o _) = _
    rw [lengthC_eq e]

-- test_shadow_geometry.cpp:113-122: the value of the normal
example : ∀ o ∈ [SumOrder.xyz, .zyx, .xzy], (normalC o first second third).map shown = some "0.815682 -0.5785 0".toList := by decide +kernel

/-- test_shadow_geometry.cpp:123-132. -/
def gap (o : SumOrder) (n : V3 Dbl) : Dbl :=
  let u := V3.subD second first
  let v := V3.subD third second
  (V3.determinantD n u v).sub (V3.dotD o n (V3.crossD u v))

-- test_shadow_geometry.cpp:123-132
example : ∀ o ∈ [SumOrder.xyz, .zyx, .xzy], (match normalC o first second third with
    | some n => (match gap o n with | .fin q => decide (|q| < 1 / 2 ^ 52) | _ => false)
    | none => false) = true := by decide +kernel

/-- test_shadow_face.cpp:140-145. -/
def corners : List (V3 Dbl) :=
  [at3 15.5343 (-13.4504) 60.8789, at3 15.7204 (-13.188) 60.8789, at3 15.65 (-12.988) 60.8789, at3 15.65 (-14.325) 60.8789]

-- test_shadow_face.cpp:139-155: "3 0 2 and 3 2 1"
example (o : SumOrder) : ∃ n m, Face.to3dsD o ⟨[3, 0, 2, 1]⟩ corners = .ok [⟨3, 0, 2, n⟩, ⟨3, 2, 1, m⟩] := by
  have hc : Face.isConvexD o ⟨[3, 0, 2, 1]⟩ corners = .ok true := by cases o <;> decide +kernel
  refine ⟨(V3.normalToD o (at3 15.65 (-14.325) 60.8789) (at3 15.5343 (-13.4504) 60.8789) (at3 15.65 (-12.988) 60.8789)).toFloat,
    (V3.normalToD o (at3 15.65 (-14.325) 60.8789) (at3 15.65 (-12.988) 60.8789) (at3 15.7204 (-13.188) 60.8789)).toFloat, ?_⟩
  unfold Face.to3dsD
  rw [hc]
  rfl

/-- The mesh of test_shadow_mesh.cpp:16-37, as it is read. -/
def small : DMesh := ⟨[], [first.toFloat, second.toFloat, third.toFloat], [⟨[0, 2, 1]⟩]⟩

/-- The 3DS structure of `small`, the normal being `n`. -/
def small3ds (n : V3 Dbl) : Mesh3dsF := ⟨[], [first.toFloat.toFloat, second.toFloat.toFloat, third.toFloat.toFloat], [⟨0, 2, 1, n.toFloat⟩]⟩

-- test_shadow_mesh.cpp:75-88: to the 3DS structure and back
example : ∀ o ∈ [SumOrder.xyz, .zyx, .xzy], ∃ n, small.to3ds o = .ok (small3ds n) ∧
    (match DMesh.of3ds (small3ds n) with
      | .ok m => decide (m.faces = small.faces) && decide (m.points = small.points) && decide (m.name = small.name)
      | _ => false) = true := by
  have key : ∀ o ∈ [SumOrder.xyz, .zyx, .xzy], ((normalC o first.toFloat third.toFloat second.toFloat).map fun n =>
      (match DMesh.of3ds (small3ds n) with
        | .ok m => decide (m.faces = small.faces) && decide (m.points = small.points) && decide (m.name = small.name)
        | _ => false)) = some true := by decide +kernel
  intro o ho
  have h := key o ho
  cases e : normalC o first.toFloat third.toFloat second.toFloat with
  | none => rw [e] at h; cases h
  | some n =>
    rw [e] at h
    refine ⟨n, ?_, by injection h⟩
    have hc : Face.isConvexD o ⟨[0, 2, 1]⟩ small.points = .ok true := by cases o <;> decide +kernel
    have hn := normalC_eq e
    have h3 : Face.to3dsD o ⟨[0, 2, 1]⟩ small.points = .ok [⟨0, 2, 1, n.toFloat⟩] := by
      unfold Face.to3dsD
      rw [hc, ← hn]
      rfl
    have hs : fillSlotsD o small.points (faceSlots small.faces) 0 small.faces = .ok [⟨0, 2, 1, n.toFloat⟩] := by
      show (do let ts ← Face.to3dsD o ⟨[0, 2, 1]⟩ small.points; _) = _
      rw [h3]
      rfl
    unfold DMesh.to3ds
    rw [hs]
    rfl

end City.Conform
