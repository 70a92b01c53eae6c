import Verif.Model.Mesh
import Verif.Spec.Num
import Verif.Model.Text
/-! Specification vocabulary for the OFF format. -/
namespace City.Spec
open City

/-- A point with finite double coordinates. -/
def FinitePoint (p : V3 ℚ) : Prop := |p.x| ≤ dblMax ∧ |p.y| ≤ dblMax ∧ |p.z| ≤ dblMax

/-- A mesh a program can hold: finite coordinates, faces of degree at least three, sizes within the
address space (2^58 strings) and indexes of type size_t. The faces may refer to points that do not exist. -/
structure Holdable (m : Mesh) : Prop where
  finite : ∀ p ∈ m.points, FinitePoint p
  degree : ∀ f ∈ m.faces, 3 ≤ f.degree
  small : m.points.length < 2 ^ 58 ∧ m.faces.length < 2 ^ 58 ∧ ∀ f ∈ m.faces, f.degree < 2 ^ 60
  index : ∀ f ∈ m.faces, ∀ i ∈ f.points, i < 2 ^ 64

/-- All coordinates of the mesh have at most six significant digits. -/
def FewDigitsMesh (m : Mesh) : Prop := ∀ p ∈ m.points, FewDigits p.x ∧ FewDigits p.y ∧ FewDigits p.z

/-- The comment and the blank lines of a text. -/
def isCommentLine (l : Text) : Bool := l.head? == some '#'

/-- The lines of the text that are not comments. -/
def contentLines (t : Text) : List Text := (readlines t).filter fun l => !isCommentLine l

/-- A text that declares what it contains: the size line has at most three integers (the two first being the numbers
`np` and `nf`, below 2^58), the `np` next lines have at least three numbers and the `nf` following ones at most as many
integers after the degree as the degree says. -/
def Declared (rnd : ℚ → ℚ) (t : Text) : Prop :=
  ∀ l0 l1 rest, contentLines t = l0 :: l1 :: rest →
    (scanNats l1).length ≤ 3 ∧ (scanNats l1).getD 0 0 < 2 ^ 58 ∧ (scanNats l1).getD 1 0 < 2 ^ 58 ∧
    (∀ l ∈ rest.take ((scanNats l1).getD 0 0), 3 ≤ (scanDecs rnd l).length) ∧
    (∀ l ∈ rest.drop ((scanNats l1).getD 0 0), (scanNats l).length ≤ (scanNats l).getD 0 0 + 1)

end City.Spec
