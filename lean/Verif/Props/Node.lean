import Verif.Spec.Node
import Verif.Lemmas.SurfDemo
import Mathlib.Tactic.Ring
import Mathlib.Tactic.Linarith
import Mathlib.Tactic.LinearCombination
import Mathlib.Tactic.FieldSimp
import Mathlib.Analysis.SpecialFunctions.Trigonometric.Basic
/-!
C60, C61: transformations of a node and its bounding box.
-/
set_option linter.unusedSectionVars false
namespace City.Props
open City City.Spec V3

section
variable {K : Type} [Field K] [LinearOrder K] [IsStrictOrderedRing K]

theorem Aff.apply_one (p : V3 K) : Aff.one.apply p = p := by
  ext <;> simp [Aff.one, Aff.apply, dot, zero]

theorem Aff.apply_mul (A B : Aff K) (p : V3 K) : (A.mul B).apply p = A.apply (B.apply p) := by
  ext <;> simp only [Aff.mul, Aff.apply, Aff.row, dot] <;> ring

theorem Aff.apply_translation (v p : V3 K) : (Aff.translation v).apply p = add p v := by
  ext <;> simp [Aff.translation, Aff.apply, dot, add]

theorem Aff.apply_scaling (s : K) (p : V3 K) : (Aff.scaling s).apply p = smul s p := by
  ext <;> simp [Aff.scaling, Aff.apply, dot, smul, zero]

theorem moved_affine (A : Aff K) (n : UNode K) : Moved A.apply n (n.affine A) := by
  refine ⟨fun v hv => ?_, rfl, rfl, rfl, rfl, rfl, rfl, rfl, rfl, rfl, rfl, rfl, rfl, rfl⟩
  simp [UNode.affine, Surf.transform, hv]

/-- C60: `affine_transform`, `translate` and `scale` move every vertex by the stated map and change nothing else of the surface. -/
theorem C60_maps_partial (n : UNode K) : (∀ A : Aff K, Moved A.apply n (n.affine A)) ∧ (∀ v, Moved (fun p => add p v) n (n.translate v)) ∧
    (∀ s, Moved (fun p => smul s p) n (n.scale s)) := by
  refine ⟨fun A => moved_affine A n, fun v => ?_, fun s => ?_⟩
  · have := moved_affine (Aff.translation v) n
    rwa [show (Aff.translation v).apply = fun p => add p v from funext (Aff.apply_translation v)] at this
  · have := moved_affine (Aff.scaling s) n
    rwa [show (Aff.scaling s).apply = fun p => smul s p from funext (Aff.apply_scaling s)] at this

theorem affine_affine (A B : Aff K) (n : UNode K) : (n.affine B).affine A = n.affine (A.mul B) := by
  simp only [UNode.affine, Surf.transform, UNode.mk.injEq, Surf.mk.injEq, true_and, and_true]
  funext v
  by_cases hv : v ∈ n.surf.vs
  · simp only [hv, if_true, Aff.apply_mul]
  · simp only [hv, if_false]

theorem affine_congr {A B : Aff K} (h : ∀ p, A.apply p = B.apply p) (n : UNode K) : n.affine A = n.affine B := by
  rw [UNode.affine, UNode.affine, show A.apply = B.apply from funext h]

theorem affine_id {A : Aff K} (h : ∀ p, A.apply p = p) (n : UNode K) : n.affine A = n := by
  have hA : A.apply = id := funext h
  cases n with
  | mk name ref epsg S box =>
    cases S
    simp only [UNode.affine, Surf.transform, hA, id]
    simp

/-- C60: transformations compose: two of them are the product; translations add up, are undone by the opposite one and commute; scalings multiply and
are undone by the inverse. The results are equal nodes, for all nodes and parameters. -/
theorem C60_compose (n : UNode K) : (∀ A B : Aff K, (n.affine B).affine A = n.affine (A.mul B)) ∧
    (∀ v w, (n.translate v).translate w = n.translate (add v w)) ∧ (∀ v, (n.translate v).translate (neg v) = n) ∧
    (∀ v w, (n.translate v).translate w = (n.translate w).translate v) ∧ (∀ s t, (n.scale s).scale t = n.scale (t * s)) ∧
    (∀ s, s ≠ 0 → (n.scale s).scale s⁻¹ = n) ∧ n.translate zero = n ∧ n.scale 1 = n := by
  have htr : ∀ v w, (n.translate v).translate w = n.translate (add v w) := by
    intro v w
    unfold UNode.translate
    rw [affine_affine]
    apply affine_congr
    intro p
    rw [Aff.apply_mul, Aff.apply_translation, Aff.apply_translation, Aff.apply_translation]
    ext <;> simp only [add] <;> ring
  refine ⟨fun A B => affine_affine A B n, htr, ?_, ?_, ?_, ?_, ?_, ?_⟩
  · intro v
    rw [htr]
    apply affine_id
    intro p
    rw [Aff.apply_translation]
    ext <;> simp only [add, neg] <;> ring
  · intro v w
    rw [htr, htr]
    apply affine_congr
    intro p
    rw [Aff.apply_translation, Aff.apply_translation]
    ext <;> simp only [add] <;> ring
  · intro s t
    unfold UNode.scale
    rw [affine_affine]
    apply affine_congr
    intro p
    rw [Aff.apply_mul, Aff.apply_scaling, Aff.apply_scaling, Aff.apply_scaling]
    ext <;> simp only [smul] <;> ring
  · intro s hs
    unfold UNode.scale
    rw [affine_affine]
    apply affine_id
    intro p
    rw [Aff.apply_mul, Aff.apply_scaling, Aff.apply_scaling]
    ext <;> simp only [smul] <;> field_simp
  · apply affine_id
    intro p
    rw [Aff.apply_translation]
    ext <;> simp [add, zero]
  · apply affine_id
    intro p
    rw [Aff.apply_scaling]
    ext <;> simp [smul]

/-- C60: translations keep all distances, scalings multiply them by the (absolute value of the) factor. -/
theorem C60_distances (n : UNode K) (v w : Nat) (hv : v ∈ n.surf.vs) (hw : w ∈ n.surf.vs) :
    (∀ t, dist2 ((n.translate t).surf.pt v) ((n.translate t).surf.pt w) = dist2 (n.surf.pt v) (n.surf.pt w)) ∧
    (∀ s, dist2 ((n.scale s).surf.pt v) ((n.scale s).surf.pt w) = s ^ 2 * dist2 (n.surf.pt v) (n.surf.pt w)) := by
  obtain ⟨_, h1, h2⟩ := C60_maps_partial n
  constructor
  · intro t
    rw [(h1 t).point v hv, (h1 t).point w hw]
    simp only [dist2, add]; ring
  · intro s
    rw [(h2 s).point v hv, (h2 s).point w hw]
    simp only [dist2, smul]; ring

end

/-! Rotations -/

/-- What the user expects of a rotation: every vertex is moved by a map that keeps distances and fixes the points of the axis. -/
def C60_full : Prop :=
  ∀ (n : UNode ℝ) (axis : V3 ℝ) (angle : ℝ), axis ≠ zero → ∃ n' m, n.rotate axis angle = .ok n' ∧ Moved m n n' ∧
    (∀ p q, dist2 (m p) (m q) = dist2 p q) ∧ ∀ t, m (smul t axis) = smul t axis

/-- C60: `rotate` is undefined for every node, axis and angle, and so is the version with a map unless the map is empty: the matrices are written
through the beginning of an empty vector. -/
theorem C60_rotate_undefined (n : UNode ℝ) (axis : V3 ℝ) (angle : ℝ) (r : ℝ × V3 ℝ) (rots : List (ℝ × V3 ℝ)) :
    n.rotate axis angle = .ub ∧ n.rotateMap (r :: rots) = .ub ∧ n.rotateMap [] = .ok n := by
  refine ⟨rfl, rfl, ?_⟩
  simp only [UNode.rotateMap, rotationTransform, List.map_nil, writeOver, Out.ok_bind, List.foldl_nil]
  rw [affine_id Aff.apply_one]

/-- The surface without any element. -/
def nothing : Surf ℝ := ⟨[], [], [], id, id, id, id, fun _ => none, id, id, fun _ => zero⟩

theorem C60_refuted : ¬ C60_full := by
  intro h
  obtain ⟨n', m, h1, _⟩ := h ⟨[], ⟨0, 0, 0⟩, 2154, nothing, none⟩ ⟨0, 0, 1⟩ 0 (by simp [V3.zero])
  rw [(C60_rotate_undefined _ _ _ (0, zero) []).1] at h1
  cases h1

/-- The unit vector of a non zero axis. -/
theorem unit_axis {a : V3 ℝ} (ha : a ≠ zero) :
    let u := divs a (Real.sqrt (dot a a))
    u.x ^ 2 + u.y ^ 2 + u.z ^ 2 = 1 ∧ a = smul (Real.sqrt (dot a a)) u := by
  have h0 : 0 < dot a a := by
    rcases lt_or_eq_of_le (show 0 ≤ dot a a by unfold dot; nlinarith [mul_self_nonneg a.x, mul_self_nonneg a.y, mul_self_nonneg a.z]) with h | h
    · exact h
    · exfalso; apply ha
      unfold dot at h
      have hx : a.x = 0 := by nlinarith [mul_self_nonneg a.x, mul_self_nonneg a.y, mul_self_nonneg a.z]
      have hy : a.y = 0 := by nlinarith [mul_self_nonneg a.x, mul_self_nonneg a.y, mul_self_nonneg a.z]
      have hz : a.z = 0 := by nlinarith [mul_self_nonneg a.x, mul_self_nonneg a.y, mul_self_nonneg a.z]
      ext <;> assumption
  have hs : 0 < Real.sqrt (dot a a) := Real.sqrt_pos.2 h0
  have h2 : Real.sqrt (dot a a) ^ 2 = dot a a := Real.sq_sqrt h0.le
  constructor
  · simp only [divs]
    rw [div_pow, div_pow, div_pow, h2, ← add_div, ← add_div, div_eq_one_iff_eq h0.ne']
    unfold dot; ring
  · ext <;> simp only [smul, divs] <;> field_simp

/-- C60: the matrix that is computed for an axis and an angle (it never reaches the points, see above) is the rotation it is meant to be: it keeps scalar
products, hence distances, and orientation, fixes the axis, is the identity for the angle 0, angles around one axis add up, and vectors normal to the axis turn counterclockwise by the angle. -/
theorem C60_matrix (axis : V3 ℝ) (ha : axis ≠ zero) (angle : ℝ) :
    (∀ p q, dot ((rotationMatrix angle axis).apply p) ((rotationMatrix angle axis).apply q) = dot p q) ∧
    (∀ p q r, determinant ((rotationMatrix angle axis).apply p) ((rotationMatrix angle axis).apply q) ((rotationMatrix angle axis).apply r) = determinant p q r) ∧
    (∀ t, (rotationMatrix angle axis).apply (smul t axis) = smul t axis) ∧ (∀ p, (rotationMatrix 0 axis).apply p = p) ∧
    (∀ angle' p, (rotationMatrix angle' axis).apply ((rotationMatrix angle axis).apply p) = (rotationMatrix (angle' + angle) axis).apply p) ∧
    (∀ p, dot axis p = 0 → dot p ((rotationMatrix angle axis).apply p) = Real.cos angle * dot p p ∧
      determinant axis p ((rotationMatrix angle axis).apply p) = Real.sin angle * norm axis * dot p p) := by
  obtain ⟨hu, hax⟩ := unit_axis ha
  set u := divs axis (Real.sqrt (dot axis axis)) with hdu
  have hcs : Real.sin angle ^ 2 = 1 - Real.cos angle ^ 2 := by
    have := Real.sin_sq_add_cos_sq angle; linarith
  have hz : u.z ^ 2 = 1 - u.x ^ 2 - u.y ^ 2 := by linarith
  have key : ∀ angle p, (rotationMatrix angle axis).apply p =
      add (add (smul (Real.cos angle) p) (smul ((1 - Real.cos angle) * dot u p) u)) (smul (Real.sin angle) (cross u p)) := by
    intro angle p
    simp only [rotationMatrix, ← hdu, Aff.apply]
    ext <;> simp only [dot, add, smul, cross, zero] <;> ring
  have hx : axis.x = Real.sqrt (dot axis axis) * u.x := congrArg V3.x hax
  have hy : axis.y = Real.sqrt (dot axis axis) * u.y := congrArg V3.y hax
  have hw : axis.z = Real.sqrt (dot axis axis) * u.z := congrArg V3.z hax
  refine ⟨fun p q => ?_, fun p q r => ?_, fun t => ?_, fun p => ?_, fun angle' p => ?_, fun p hp => ?_⟩
  · rw [key, key]
    simp only [dot, add, smul, cross]
    linear_combination ((1 - Real.cos angle) ^ 2 * (u.x * p.x + u.y * p.y + u.z * p.z) * (u.x * q.x + u.y * q.y + u.z * q.z)
      + Real.sin angle ^ 2 * (p.x * q.x + p.y * q.y + p.z * q.z)) * hu
      + ((p.x * q.x + p.y * q.y + p.z * q.z) - (u.x * p.x + u.y * p.y + u.z * p.z) * (u.x * q.x + u.y * q.y + u.z * q.z)) * hcs
  · rw [key, key, key]
    simp only [determinant, dot, add, smul, cross]
    linear_combination ((p.x * q.y * r.z - p.x * q.z * r.y - p.y * q.x * r.z + p.y * q.z * r.x + p.z * q.x * r.y - p.z * q.y * r.x)
      * ((1 - Real.cos angle) * (Real.cos angle ^ 2 + Real.sin angle ^ 2 * (u.x ^ 2 + u.y ^ 2 + u.z ^ 2)) + Real.sin angle ^ 2)) * hu
      + (p.x * q.y * r.z - p.x * q.z * r.y - p.y * q.x * r.z + p.y * q.z * r.x + p.z * q.x * r.y - p.z * q.y * r.x) * hcs
  · rw [key]
    ext <;> simp only [dot, add, smul, cross] <;> rw [hx, hy, hw]
    · linear_combination ((1 - Real.cos angle) * t * Real.sqrt (dot axis axis) * u.x) * hu
    · linear_combination ((1 - Real.cos angle) * t * Real.sqrt (dot axis axis) * u.y) * hu
    · linear_combination ((1 - Real.cos angle) * t * Real.sqrt (dot axis axis) * u.z) * hu
  · rw [key, Real.cos_zero, Real.sin_zero]
    ext <;> simp only [dot, add, smul, cross] <;> ring
  · rw [key, key, key, Real.cos_add, Real.sin_add]
    ext <;> simp only [dot, add, smul, cross]
    · linear_combination (- Real.sin angle' * Real.sin angle * p.x + (u.x * p.x + u.y * p.y + u.z * p.z) * (1 - Real.cos angle') * (1 - Real.cos angle) * u.x) * hu
    · linear_combination (- Real.sin angle' * Real.sin angle * p.y + (u.x * p.x + u.y * p.y + u.z * p.z) * (1 - Real.cos angle') * (1 - Real.cos angle) * u.y) * hu
    · linear_combination (- Real.sin angle' * Real.sin angle * p.z + (u.x * p.x + u.y * p.y + u.z * p.z) * (1 - Real.cos angle') * (1 - Real.cos angle) * u.z) * hu
  · obtain ⟨N, hN⟩ : ∃ N, N = Real.sqrt (dot axis axis) := ⟨_, rfl⟩
    rw [← hN] at hx hy hw hax
    have hd : u.x * p.x + u.y * p.y + u.z * p.z = 0 := by
      have hn : N ≠ 0 := by
        intro h0
        apply ha
        rw [hax, h0]
        ext <;> simp [smul, zero]
      have : N * (u.x * p.x + u.y * p.y + u.z * p.z) = 0 := by
        rw [← hp]
        unfold dot
        linear_combination (- p.x) * hx + (- p.y) * hy + (- p.z) * hw
      exact (mul_eq_zero.1 this).resolve_left hn
    rw [key]
    constructor
    · simp only [dot, add, smul, cross]
      linear_combination ((1 - Real.cos angle) * (p.x * u.x + p.y * u.y + p.z * u.z)) * hd
    · unfold V3.norm
      rw [← hN]
      simp only [determinant, add, smul, cross, hx, hy, hw, dot]
      linear_combination (N * Real.sin angle * (p.x * p.x + p.y * p.y + p.z * p.z)) * hu
        - (N * Real.sin angle * (u.x * p.x + u.y * p.y + u.z * p.z)) * hd

end City.Props
