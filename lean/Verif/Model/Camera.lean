import Verif.Model.Node
import Verif.Model.Value
/-
Model of the constructors of /repo/src/lib/projection/camera.cpp. Numbers are reals; `to_double` is exact.
-/
namespace City

/-- `Affine_transformation_2`: the six coefficients, two rows. -/
structure Aff2 where
  m00 : ℝ
  m01 : ℝ
  m02 : ℝ
  m10 : ℝ
  m11 : ℝ
  m12 : ℝ

/-- Applying an `Affine_transformation_2` to a point. -/
noncomputable def Aff2.apply (A : Aff2) (p : V2 ℝ) : V2 ℝ := ⟨A.m00 * p.x + A.m01 * p.y + A.m02, A.m10 * p.x + A.m11 * p.y + A.m12⟩

/-- `Camera` with real transformations. -/
abbrev Cam := Camera Aff2 (Aff ℝ) (V3 ℝ)

namespace Camera

/-- `Camera::Camera()`: camera.cpp:9; the transformations of the default constructors are identities, the vector is not initialised by
CGAL and recorded as zero. -/
noncomputable def dflt : Cam := ⟨['N', '/', 'A'], ⟨1, 0, 0, 0, 1, 0⟩, V3.zero, Aff.one⟩

/-- `Camera::Camera(name, focal_distance, scale_factor_x, scale_factor_y, principal_point, position, rotations)`: camera.cpp:11-15; the
rotations are the entries of the map, by increasing angle. -/
noncomputable def ofFactors (name : Text) (f sx sy : ℝ) (pp : V2 ℝ) (pos : V3 ℝ) (rots : List (ℝ × V3 ℝ)) : Out Cam := do
  let o ← rotationTransform rots
  .ok ⟨name, ⟨f * sx, 0, pp.x, 0, f * sy, pp.y⟩, pos, o⟩

/-- `Camera::Camera(name, focal_distance, principal_point, position, rotations)`: camera.cpp:17-21. -/
noncomputable def ofFocal (name : Text) (f : ℝ) (pp : V2 ℝ) (pos : V3 ℝ) (rots : List (ℝ × V3 ℝ)) : Out Cam := do
  let o ← rotationTransform rots
  .ok ⟨name, ⟨f, 0, pp.x, 0, f, pp.y⟩, pos, o⟩

/-- `Camera::Camera(name, calibration, position, rotations)`: camera.cpp:23-27. -/
noncomputable def ofCalibration (name : Text) (k : Aff2) (pos : V3 ℝ) (rots : List (ℝ × V3 ℝ)) : Out Cam := do
  let o ← rotationTransform rots
  .ok ⟨name, k, pos, o⟩

/-- `Camera::Camera(name, calibration, position, orientation)`: camera.cpp:29-33. -/
def ofOrientation (name : Text) (k : Aff2) (pos : V3 ℝ) (o : Aff ℝ) : Cam := ⟨name, k, pos, o⟩

end Camera
end City
