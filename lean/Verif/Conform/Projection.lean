import Verif.Conform.Shadow
import Verif.Lemmas.RectCgal
import Verif.Model.FootText
/-!
The unit tests of the project on footprints of faces (test_projection_face.cpp) and the texts of footprints of one face (test_projection_brick.cpp), run on the
model by the kernel. CGAL is not part of the model: where a point lies is decided here by counting crossings, `to_double` rounds to the nearest double. The tests
which need Boolean operations on polygons are not run.
-/
namespace City.Conform
open City City.Spec

/-- Whether `p` is on the segment from `a` to `b`. -/
def onSegment (a b p : V2 ℚ) : Bool :=
  decide (triArea a b p = 0) && decide (min a.x b.x ≤ p.x ∧ p.x ≤ max a.x b.x ∧ min a.y b.y ≤ p.y ∧ p.y ≤ max a.y b.y)

/-- Whether the ray from `p` to the right crosses the segment from `a` to `b`. -/
def crosses (a b p : V2 ℚ) : Bool :=
  decide (a.y ≤ p.y) != decide (b.y ≤ p.y) && decide (p.x < a.x + (p.y - a.y) * (b.x - a.x) / (b.y - a.y))

/-- `Polygon_2::bounded_side`, by crossings. -/
def crossSide (r : Poly ℚ) (p : V2 ℚ) : Side :=
  let es := r.zip (r.rotate 1)
  if es.any fun e => onSegment e.1 e.2 p then .boundary
  else if (es.filter fun e => crosses e.1 e.2 p).length % 2 = 1 then .bounded else .unbounded

/-- The library of the tests. -/
def lib : Cgal ℚ := { rectCgal with toDouble := fl, side := crossSide }

/-- `to_exact(InexactKernel::Point_3(x, y, z))`. -/
def exact (x y z : ℚ) : V3 ℚ := ⟨fl x, fl y, fl z⟩
/-- The point below. -/
def flat (p : V3 ℚ) : V2 ℚ := ⟨p.x, p.y⟩

/-- `test_facet_projection(id, A, B, C)`: test_utils.cpp:3-16. -/
def facetOf (id : Nat) (A B C : V3 ℚ) : FacePrint ℚ := ⟨id, ⟨[flat A, flat B, flat C], []⟩, planeThrough A B C⟩

/-- test_projection_face.cpp:18-23. -/
def perpendicular : FacePrint ℚ := facetOf 0 (exact 1.25 98.64 5) (exact 1.25 98.64 0) (exact 87.3 0.029 3.615)

-- test_projection_face.cpp:25-68
example : perpendicular.isPerpendicular = true ∧ perpendicular.area lib < FacePrint.eps ∧ perpendicular.isDegenerate lib = true ∧
    perpendicular.height lib ⟨0, 0⟩ = .thrown .overflowError ∧ perpendicular.contains lib ⟨0, 0⟩ = false := by decide +kernel

/-- The point of the tests on the border: `C + .2 * (A - C)`, `.2` being a double. -/
def between (C A : V2 ℚ) : V2 ℚ := ⟨C.x + fl ((1 : ℚ) / 5) * (A.x - C.x), C.y + fl ((1 : ℚ) / 5) * (A.y - C.y)⟩

-- test_projection_face.cpp:47-54
example : perpendicular.contains lib (between (flat (exact 87.3 0.029 3.615)) (flat (exact 1.25 98.64 5))) = true := by decide +kernel

/-- test_projection_face.cpp:72-90. -/
def degenerate : FacePrint ℚ :=
  let A := exact 64.25 50 0
  let B := exact 1.25 98.64 5
  let C := exact 87.3 0.029 3.615
  ⟨0, ⟨[flat A, flat B, flat C], [[flat A, flat B, flat C]]⟩, planeThrough A B C⟩

-- test_projection_face.cpp:92-143
example : degenerate.isPerpendicular = false ∧ degenerate.area lib < FacePrint.eps ∧ degenerate.isDegenerate lib = true ∧
    degenerate.contains lib (between (flat (exact 87.3 0.029 3.615)) (flat (exact 64.25 50 0))) = true ∧
    degenerate.height lib ⟨0, 0⟩ = .ok 0 ∧ degenerate.contains lib ⟨0, 0⟩ = false := by decide +kernel

-- test_projection_face.cpp:128-134
example : (match degenerate.planeHeight lib ⟨0, 0⟩ with | .ok z => decide (|z - 21.9535182665| < 1 / 2 ^ 23) | _ => false) = true := by decide +kernel

/-- test_projection_face.cpp:146-168. -/
def holed : FacePrint ℚ :=
  ⟨0, ⟨[⟨-3, -5⟩, ⟨3, -5⟩, ⟨3, 5⟩, ⟨-3, 5⟩], [[⟨-1, -3⟩, ⟨-1, 3⟩, ⟨1, 3⟩, ⟨1, -3⟩]]⟩, planeThrough ⟨-3, -5, 5⟩ ⟨3, -5, 5⟩ ⟨3, 5, 0⟩⟩

-- test_projection_face.cpp:170-220: the area of the hole, which turns clockwise, is added
example : holed.isPerpendicular = false ∧ |holed.area lib - 72| < FacePrint.eps ∧ holed.isDegenerate lib = false ∧
    holed.contains lib (between ⟨3, 5⟩ ⟨-3, -5⟩) = true ∧ holed.height lib ⟨0, 0⟩ = .ok 0 ∧ holed.planeHeight lib ⟨0, 0⟩ = .ok (5 / 2) ∧
    holed.contains lib ⟨0, 0⟩ = false := by decide +kernel

/-- What `operator <<` writes for a number of the exact kernel: its double, with six digits. -/
def number (x : ℚ) : Text := dblWord false (.ofExact x)

/-- A ring as CGAL writes it. -/
def ring (r : Poly ℚ) : Text := natText r.length ++ ' ' :: (r.flatMap fun p => number p.x ++ ' ' :: (number p.y ++ [' ']))

/-- What CGAL writes. -/
def scribe : Scribe ℚ where
  real := number
  int := natText
  border := fun q => ring q.outer ++ ' ' :: (natText q.holes.length ++ ' ' :: q.holes.flatMap fun h => ring h ++ [' '])
  plane := fun q => number q.a ++ ' ' :: (number q.b ++ ' ' :: (number q.c ++ ' ' :: number q.d))
  box := fun b => match b with
    | some b => number b.xmin ++ ' ' :: (number b.ymin ++ ' ' :: (number b.xmax ++ ' ' :: number b.ymax))
    | none => []

-- test_projection_brick.cpp:16-37
example : (Brick.ofFace (facetOf 0 (exact 64.25 50 0) (exact 1.25 98.64 5) (exact 87.3 0.029 3.615))).text scribe =
    ("Bounding box: 1.25 0.029 87.3 98.64\nFace Projections: 1\nId: 0\nThe Polygon describing borders :3 64.25 50 1.25 98.64 87.3 0.029  0 \n" ++
      "The supporting plane coefficients : 425.689 342.995 2027.02 -44500.2\n\n").toList := by decide +kernel

/-- test_projection_brick.cpp:50-55. -/
def face1 : FacePrint ℚ := facetOf 1 (exact (-1) 0 5) (exact 1 0 2) (exact 0 1 3.615)
/-- test_projection_brick.cpp:56-61. -/
def face2 : FacePrint ℚ := facetOf 2 (exact (-0.5) 0.33 5) (exact 0.5 0.33 5) (exact 0 0.67 8.2)

-- test_projection_brick.cpp:63-73
example : (Brick.ofFace face2).text scribe =
    ("Bounding box: -0.5 0.33 0.5 0.67\nFace Projections: 1\nId: 2\nThe Polygon describing borders :3 -0.5 0.33 0.5 0.33 0 0.67  0 \n" ++
      "The supporting plane coefficients : 0 -3.2 0.34 -0.644\n\n").toList := by decide +kernel

-- test_projection_brick.cpp:92-102: the text of the sum, given the border that CGAL computes
example : (Brick.mk (Box2.union face1.bbox face2.bbox) [{ face1 with border := ⟨face1.border.outer, [reverseOrientation (face2.border.outer.rotate 1)]⟩ }, face2]).text scribe =
    ("Bounding box: -1 0 1 1\nFace Projections: 2\nId: 1\nThe Polygon describing borders :3 -1 0 1 0 0 1  1 3 0.5 0.33 -0.5 0.33 0 0.67  \n" ++
      "The supporting plane coefficients : 3 -0.23 2 -7\n\nId: 2\nThe Polygon describing borders :3 -0.5 0.33 0.5 0.33 0 0.67  0 \n" ++
      "The supporting plane coefficients : 0 -3.2 0.34 -0.644\n\n").toList := by decide +kernel

end City.Conform
