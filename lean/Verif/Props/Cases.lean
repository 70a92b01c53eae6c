import Verif.Props.Centroid
import Verif.Props.Node
import Verif.Props.NumDbl
import Verif.Props.RobustTriangles
import Verif.Props.Surf
/-!
Concrete cases that meet the hypotheses of theorems of other modules (C22, C57, C58, C60, C63, C64, C89).
-/
set_option exponentiation.threshold 2000
namespace City.Props
open City Spec V3

/-- C57: the tetrahedron: its matrix is symmetric. -/
example : ∃ m, tetra.adjacencyMatrix = .ok m ∧ m.length = 16 ∧ (m[0 * 4 + 1]? = some true ↔ m[1 * 4 + 0]? = some true) ∧ m[0 * 4 + 1]? = some true := by
  obtain ⟨m, h1, h2, -⟩ := C57_matrix tetra_valid
  have e : tetra.adjacencyMatrix = .ok (List.replicate 16 true) := by decide +kernel
  rw [e] at h1
  cases h1
  exact ⟨_, e, rfl, Iff.rfl, rfl⟩

/-- C57_symmetric on the tetrahedron. -/
example (m : List Bool) (h : tetra.adjacencyMatrix = .ok m) := C57_symmetric tetra_valid m h 0 1 (by decide +kernel) (by decide +kernel)

/-- C58 on the tetrahedron. -/
example : tetra.fs.Nodup ∧ tetra.fs ≠ [] := by decide +kernel

/-- C60_distances: two corners of the tetrahedron, moved and doubled. -/
example : dist2 (((UNode.make "t".toList ⟨0, 0, 0⟩ 2154 tetra).scale 2).surf.pt 0) (((UNode.make "t".toList ⟨0, 0, 0⟩ 2154 tetra).scale 2).surf.pt 1) =
    2 ^ 2 * dist2 (tetra.pt 0) (tetra.pt 1) ∧ dist2 (tetra.pt 0) (tetra.pt 1) ≠ 0 :=
  ⟨(C60_distances (UNode.make "t".toList ⟨0, 0, 0⟩ 2154 tetra) 0 1 (by decide +kernel) (by decide +kernel)).2 2, by decide +kernel⟩

/-- C60_matrix: a quarter turn about the vertical axis takes the first axis to the second one. -/
example : dot (⟨1, 0, 0⟩ : V3 ℝ) ((rotationMatrix (Real.pi / 2) ⟨0, 0, 1⟩).apply ⟨1, 0, 0⟩) = 0 := by
  have h := (C60_matrix ⟨0, 0, 1⟩ (by intro h; have := congrArg V3.z h; norm_num [zero] at this) (Real.pi / 2)).2.2.2.2.2 ⟨1, 0, 0⟩ (by simp [dot])
  rw [h.1, Real.cos_pi_div_two, zero_mul]

/-- C64: the faces of the tetrahedron have a circumference, and C64_translate holds for it. -/
example : ∃ f r, f ∈ (realSurf tetra).fs ∧ (realSurf tetra).circumference f = .ok r := by
  have hf : 0 ∈ (realSurf tetra).fs := by show 0 ∈ tetra.fs; decide +kernel
  exact ⟨0, _, hf, (C64_facet (realSurf_valid tetra_valid) 0 hf).1⟩

/-- C22_second_trip: a third, printed and read as a double, printed and read again. -/
example : ∃ y, scanDecs fl (dblText (1 / 3)) = [y] ∧ scanDecs fl (dblText y) = [y] := by
  have hx : |(1 / 3 : ℚ)| ≤ dblMax := by rw [abs_of_pos (by norm_num)]; unfold dblMax; norm_num
  obtain ⟨d, h, -⟩ := C22_read_back fl (1 / 3) hx
  exact ⟨_, h, C22_second_trip _ _ hx h⟩

/-- C89_robust_partial: a triangle far from the origin with a quarter in a coordinate: its normal is computed up to 2^-46. -/
example (o : SumOrder) : WithinPoint (2 ^ (-46 : ℤ))
    (normalToD o (⟨652000, 6862000 + 1 / 4, 10⟩ : V3 ℚ).toDbl (⟨652064, 6862000, 10⟩ : V3 ℚ).toDbl (⟨652064, 6862064, 10⟩ : V3 ℚ).toDbl)
    (normalTo (realPoint ⟨652000, 6862000 + 1 / 4, 10⟩) (realPoint ⟨652064, 6862000, 10⟩) (realPoint ⟨652064, 6862064, 10⟩)) := by
  have h := C89_robust_partial o 64 (le_trans (zpow_le_one_of_nonpos₀ (by norm_num) (by norm_num)) (by norm_num)) (by norm_num)
    ⟨652000, 6862000 + 1 / 4, 10⟩ ⟨652064, 6862000, 10⟩ ⟨652064, 6862064, 10⟩
    ⟨⟨652000 * 2 ^ 200, by norm_num⟩, ⟨(4 * 6862000 + 1) * 2 ^ 198, by norm_num⟩, ⟨10 * 2 ^ 200, by norm_num⟩⟩
    ⟨⟨652064 * 2 ^ 200, by norm_num⟩, ⟨6862000 * 2 ^ 200, by norm_num⟩, ⟨10 * 2 ^ 200, by norm_num⟩⟩
    ⟨⟨652064 * 2 ^ 200, by norm_num⟩, ⟨6862064 * 2 ^ 200, by norm_num⟩, ⟨10 * 2 ^ 200, by norm_num⟩⟩
    (by unfold SideWithin; norm_num) (by unfold SideWithin; norm_num) (by rw [yard_area]; norm_num)
  rw [yard_area] at h
  have e : (2 : ℝ) ^ (-46 : ℤ) * (((64 : ℚ) : ℝ) ^ 2 / 4096) = 2 ^ (-46 : ℤ) := by norm_num
  rw [e] at h
  exact h

end City.Props
