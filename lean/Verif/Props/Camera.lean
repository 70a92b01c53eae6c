import Verif.Model.Camera
import Verif.Props.Node
/-!
C80: cameras.
-/
namespace City.Props
open City V3

/-- A camera has the name, the position, the pinhole calibration `(x, y) ↦ (f sx x + cx, f sy y + cy)` and an orientation which keeps scalar
products and fixes the axis of the only rotation given. -/
structure CameraOk (c : Cam) (name : Text) (f sx sy : ℝ) (pp : V2 ℝ) (pos : V3 ℝ) (rots : List (ℝ × V3 ℝ)) : Prop where
  name : c.name = name
  position : c.position = pos
  calibration : ∀ p, c.calibration.apply p = ⟨f * sx * p.x + pp.x, f * sy * p.y + pp.y⟩
  rigid : ∀ p q, dot (c.orientation.apply p) (c.orientation.apply q) = dot p q
  axis : ∀ angle a, rots = [(angle, a)] → ∀ t, c.orientation.apply (smul t a) = smul t a
  still : rots = [] → ∀ p, c.orientation.apply p = p

/-- C80 as stated: the constructors give a camera as described, for all rotations about axes that are not zero. False: `C80_refuted`. -/
def C80_full : Prop := ∀ (name : Text) (f sx sy : ℝ) (pp : V2 ℝ) (pos : V3 ℝ) (rots : List (ℝ × V3 ℝ)), (∀ r ∈ rots, r.2 ≠ zero) →
  ∃ c, Camera.ofFactors name f sx sy pp pos rots = .ok c ∧ CameraOk c name f sx sy pp pos rots

/-- C80: every constructor that takes rotations is undefined as soon as one rotation is given. -/
theorem C80_undefined (name : Text) (f sx sy : ℝ) (pp : V2 ℝ) (k : Aff2) (pos : V3 ℝ) (r : ℝ × V3 ℝ) (rots : List (ℝ × V3 ℝ)) :
    Camera.ofFactors name f sx sy pp pos (r :: rots) = .ub ∧ Camera.ofFocal name f pp pos (r :: rots) = .ub ∧
      Camera.ofCalibration name k pos (r :: rots) = .ub := ⟨rfl, rfl, rfl⟩

theorem C80_refuted : ¬ C80_full := by
  intro h
  obtain ⟨c, hc, _⟩ := h [] 1 1 1 ⟨0, 0⟩ zero [(0, ⟨0, 0, 1⟩)] (by simp [V3.zero])
  rw [(C80_undefined [] 1 1 1 ⟨0, 0⟩ ⟨1, 0, 0, 0, 1, 0⟩ zero _ _).1] at hc
  cases hc

/-- C80, the part that holds: without rotations the camera is as described; one focal distance is the same as two scale factors of 1;
a camera given by its calibration is the camera given by its orientation when that is the identity. -/
theorem C80_still_partial (name : Text) (f sx sy : ℝ) (pp : V2 ℝ) (pos : V3 ℝ) (k : Aff2) :
    (∃ c, Camera.ofFactors name f sx sy pp pos [] = .ok c ∧ CameraOk c name f sx sy pp pos []) ∧
    (∃ c, Camera.ofFocal name f pp pos [] = .ok c ∧ CameraOk c name f 1 1 pp pos []) ∧
    Camera.ofFocal name f pp pos [] = Camera.ofFactors name f 1 1 pp pos [] ∧
    Camera.ofCalibration name k pos [] = .ok (Camera.ofOrientation name k pos Aff.one) := by
  have e : rotationTransform [] = .ok Aff.one := rfl
  refine ⟨?_, ?_, ?_, ?_⟩
  · refine ⟨_, by unfold Camera.ofFactors; rw [e, Out.ok_bind], rfl, rfl, fun p => ?_, fun p q => ?_, fun _ _ h => by simp at h, fun _ p => ?_⟩
    · simp [Aff2.apply]
    · rw [Aff.apply_one, Aff.apply_one]
    · exact Aff.apply_one p
  · refine ⟨_, by unfold Camera.ofFocal; rw [e, Out.ok_bind], rfl, rfl, fun p => ?_, fun p q => ?_, fun _ _ h => by simp at h, fun _ p => ?_⟩
    · simp [Aff2.apply]
    · rw [Aff.apply_one, Aff.apply_one]
    · exact Aff.apply_one p
  · unfold Camera.ofFocal Camera.ofFactors
    rw [mul_one]
  · unfold Camera.ofCalibration
    rw [e, Out.ok_bind]; rfl

/-- C80: a camera made with an orientation keeps what it is given, for every calibration and orientation. -/
theorem C80_orientation (name : Text) (k : Aff2) (pos : V3 ℝ) (o : Aff ℝ) :
    let c := Camera.ofOrientation name k pos o
    c.name = name ∧ c.calibration = k ∧ c.position = pos ∧ c.orientation = o := ⟨rfl, rfl, rfl, rfl⟩

/-- The default camera changes no point of the plane and no point of the space. -/
theorem C80_default : (∀ p, Camera.dflt.calibration.apply p = p) ∧ ∀ p, Camera.dflt.orientation.apply p = p := by
  refine ⟨fun p => ?_, Aff.apply_one⟩
  simp [Camera.dflt, Aff2.apply]

example : ∃ c, Camera.ofFactors ['c'] 2 3 5 ⟨7, 11⟩ ⟨1, 2, 3⟩ [] = .ok c ∧ c.calibration.apply ⟨1, 1⟩ = ⟨13, 21⟩ := by
  obtain ⟨c, h1, h2⟩ := (C80_still_partial ['c'] 2 3 5 ⟨7, 11⟩ ⟨1, 2, 3⟩ ⟨1, 0, 0, 0, 1, 0⟩).1
  refine ⟨c, h1, ?_⟩
  rw [h2.calibration]
  norm_num

end City.Props
