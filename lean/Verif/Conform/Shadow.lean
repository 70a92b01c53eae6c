import Verif.Model.Mesh3dsDbl
import Verif.Model.MeshPrint
/-!
The unit tests of the project (`/repo/src/tests`), run on the model: what each test requires of the program is evaluated, by the kernel, on the
definitions of `Verif/Model`. These are tests of the model, not proofs of properties: they show that the model computes what the authors of
the program observed. Here: test_shadow_geometry.cpp, test_shadow_face.cpp and the first part of test_shadow_mesh.cpp.
-/
namespace City.Conform
open City

/-- A literal of the program: the double nearest to a decimal fraction. -/
def lit (x : ℚ) : Dbl := .ofExact x

/-- A point written with literals. -/
def at3 (x y z : ℚ) : V3 Dbl := ⟨lit x, lit y, lit z⟩

/-- What `std::ostream << x << " " << y << " " << z` shows. -/
def shown (v : V3 Dbl) : Text := dblWord false v.x ++ ' ' :: (dblWord false v.y ++ ' ' :: dblWord false v.z)

/-- The points of test_shadow_geometry.cpp:45-47. -/
def first : V3 Dbl := at3 15.5343 (-13.4504) 60.8789
/-- See `first`. -/
def second : V3 Dbl := at3 15.7204 (-13.188) 60.8789
/-- See `first`. -/
def third : V3 Dbl := at3 15.7204 (-13.188) 61.1764

-- test_shadow_geometry.cpp:14-25
example : shown first = "15.5343 -13.4504 60.8789".toList := by decide +kernel
-- test_shadow_geometry.cpp:27-41
example : shown (V3.vecD (at3 15.5343 (-13.4504) 60.8789) (at3 15.7204 (-13.188) 61.1764)) = "0.1861 0.2624 0.2975".toList := by decide +kernel
-- test_shadow_geometry.cpp:48-57
example : shown (V3.vecD first second) = "0.1861 0.2624 0".toList := by decide +kernel
-- test_shadow_geometry.cpp:58-67
example : shown (V3.subD third second) = "0 0 0.2975".toList := by decide +kernel
-- test_shadow_geometry.cpp:68-76
example : V3.eqD (V3.addD first (V3.vecD first second)) second = true := by decide +kernel
-- test_shadow_geometry.cpp:77-83
example : V3.eqD first second = false := by decide +kernel
-- test_shadow_geometry.cpp:84-93
example : Bbox.empty.text false = "inf -inf inf -inf inf -inf".toList := by decide +kernel
-- test_shadow_geometry.cpp:94-103
example : (((Bbox.ofPoint first).union (Bbox.ofPoint second)).union (Bbox.ofPoint third)).text false = "15.5343 15.7204 -13.4504 -13.188 60.8789 61.1764".toList := by decide +kernel
-- test_shadow_geometry.cpp:104-113
example : shown (V3.crossD (V3.vecD first second) (V3.vecD second third)) = "0.078064 -0.0553647 0".toList := by decide +kernel
-- test_shadow_geometry.cpp:114-122, in every order of the sum
example (o : SumOrder) : V3.normalToD o first second third = V3.divsD (V3.crossD (V3.vecD first second) (V3.vecD second third))
    (V3.normD o (V3.crossD (V3.vecD first second) (V3.vecD second third))) := rfl
-- test_shadow_geometry.cpp:133-141
example : V3.determinantD (V3.smulD (lit 10) (V3.subD second first)) (V3.smulD (lit 20000) (V3.subD second first)) (V3.subD third second) = .fin 0 := by
  decide +kernel

-- test_shadow_face.cpp:18-26, 63-71
example : Off.faceText ⟨[2, 0, 1]⟩ = "3 2 0 1".toList ∧ Off.faceText ⟨[3, 0, 2, 1]⟩ = "4 3 0 2 1".toList := by decide +kernel
-- test_shadow_face.cpp:28-37, 74-82
example : (Face.mk [2, 0, 1]).invert = .ok ⟨[2, 1, 0]⟩ ∧ (Face.mk [3, 0, 2, 1]).invert = .ok ⟨[3, 1, 2, 0]⟩ := by decide +kernel
-- test_shadow_face.cpp:39-45
example : ∀ o ∈ [SumOrder.xyz, .zyx, .xzy], Face.isConvexD o ⟨[2, 0, 1]⟩ [first, second, third] = .ok true := by decide +kernel
-- test_shadow_face.cpp:84-95
example : ∀ o ∈ [SumOrder.xyz, .zyx, .xzy], Face.isConvexD o ⟨[3, 0, 2, 1]⟩ [first, second, third] = .thrown .outOfRange := by decide +kernel
-- test_shadow_face.cpp:97-109
example : ∀ o ∈ [SumOrder.xyz, .zyx, .xzy], Face.isConvexD o ⟨[3, 0, 2, 1]⟩
    [at3 15.5343 (-13.4504) 60.8789, at3 15.65 (-14.325) 60.8789, at3 15.65 (-12.988) 60.8789, at3 15.7204 (-13.188) 60.8789] = .ok false := by decide +kernel
-- test_shadow_face.cpp:111-123
example : ∀ o ∈ [SumOrder.xyz, .zyx, .xzy], Face.isConvexD o ⟨[3, 0, 2, 1]⟩
    [at3 15.5343 (-13.4504) 60.8789, at3 15.7204 (-13.188) 60.8789, at3 15.65 (-12.988) 60.8789, at3 15.65 (-14.325) 60.8789] = .ok true := by decide +kernel
-- test_shadow_face.cpp:125-137
example : ∀ o ∈ [SumOrder.xyz, .zyx, .xzy], Face.isConvexD o ⟨[3, 0, 2, 1]⟩
    [at3 15.5343 (-13.4504) 60.8789, at3 15.7204 (-13.188) 60.8789, at3 15.65 (-14) 60.8789, at3 15.65 (-14.325) 60.8789] = .ok false := by decide +kernel

-- test_shadow_mesh.cpp:16-60: a triangle without a normal in a 3DS structure is turned round
example : (match DMesh.of3ds ⟨[], [first.toFloat, second.toFloat, third.toFloat], [⟨0, 1, 2, ⟨.fin 0, .fin 0, .fin 0⟩⟩]⟩ with
    | .ok m => decide (m.faces = [⟨[0, 2, 1]⟩]) && decide (m.points = [first.toFloat, second.toFloat, third.toFloat])
    | _ => false) = true := by decide +kernel

end City.Conform
