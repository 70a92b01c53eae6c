import Verif.Spec.Off
import Verif.Spec.Mesh
/-! Specification vocabulary for the OBJ format. -/
namespace City.Spec
open City

/-- `q` is what is read from the printed coordinates of `p`. -/
def ReadBack (rnd : ℚ → ℚ) (p q : V3 ℚ) : Prop :=
  scanDecs rnd (dblText p.x) = [q.x] ∧ scanDecs rnd (dblText p.y) = [q.y] ∧ scanDecs rnd (dblText p.z) = [q.z]

/-- The lines that are neither blank nor comments. -/
def objContent (t : Text) : List Text := (readlines t).filter fun l => !(l.isEmpty || l.head? == some '#')

/-- The leading vertex lines. -/
def vertexLines (t : Text) : List Text := (objContent t).takeWhile fun l => l.head? == some 'v'

/-- The lines after the leading vertex lines. -/
def otherLines (t : Text) : List Text := (objContent t).dropWhile fun l => l.head? == some 'v'

/-- A text in which every leading vertex line does not have exactly four numbers, and every number of every other line
(except object lines) denotes one of the vertex lines, counted from 1, or is below 1 and above -1. -/
def InRangeObj (rnd : ℚ → ℚ) (t : Text) : Prop :=
  (∀ l ∈ vertexLines t, (scanDecs rnd l.tail).length ≠ 4) ∧
  (vertexLines t).length < 2 ^ 63 ∧
  ∀ l ∈ otherLines t, l.head? ≠ some 'o' → ∀ q ∈ scanDecs rnd l.tail, -1 < q ∧ q < (vertexLines t).length + 1

/-- No blank in a name. -/
def NoBlank (n : Text) : Prop := ∀ c ∈ n, isSpace c = false

/-- What can be written to an OBJ file and read back: finite coordinates, faces of degree at least three on existing
points, one-word names, and not more than 2^53 points in total. -/
structure ObjReady (ms : List Mesh) : Prop where
  finite : ∀ m ∈ ms, ∀ p ∈ m.points, FinitePoint p
  degree : ∀ m ∈ ms, ∀ f ∈ m.faces, 3 ≤ f.degree
  valid : ∀ m ∈ ms, Valid m
  names : ∀ m ∈ ms, NoBlank m.name
  small : (ms.flatMap (·.points)).length ≤ 2 ^ 53

/-- A coordinate outside the range of subnormal doubles. -/
def NormalCoord (x : ℚ) : Prop := x = 0 ∨ (10 : ℚ) ^ (-307 : ℤ) ≤ |x|

end City.Spec
