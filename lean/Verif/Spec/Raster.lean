import Verif.Model.Raster
import Verif.Spec.Brick
/-!
Specification vocabulary for raster prints.
-/
namespace City.Spec
open City
variable {K : Type} [Field K] [LinearOrder K]

/-- The first box is inside the second. -/
def SubBox (b B : Box2 K) : Prop := B.xmin ≤ b.xmin ∧ b.xmax ≤ B.xmax ∧ B.ymin ≤ b.ymin ∧ b.ymax ≤ B.ymax

/-- A box which is not reversed. -/
def ProperBox (b : Box2 K) : Prop := b.xmin ≤ b.xmax ∧ b.ymin ≤ b.ymax

/-- The arithmetic mean; 0 for no value. -/
def mean (l : List K) : K := l.sum / (l.length : K)

/-- The square of the pixel in row `i` and column `j` of an image whose upper left corner is (left, top). -/
def cell (left top p : K) (i j : Nat) : Pwh K := square (left + (j : K) * p) (top - (i : K) * p) p

/-- The face meets the pixel: a point is inside both. -/
def Meets (C : Cgal K) (left top p : K) (i j : Nat) (f : FacePrint K) : Prop :=
  ∃ v, Interior C (cell left top p i j) v ∧ Interior C f.border v

variable [FloorRing K]

/-- The height the face gives to the pixel in row `i` and column `j`: the code lays over the box of the face a grid of its own,
anchored at the upper left corner of that box, and moves it to the image by whole pixels. `none`: the grid does not reach
the pixel, or the face does not meet the square of the grid. -/
def reported (C : Cgal K) (left top p : K) (i j : Nat) (f : FacePrint K) : Option K :=
  match f.bbox with
  | none => none
  | some b =>
    if f.isDegenerate C then none
    else if ⌊(top - b.ymax) / p⌋ ≤ i ∧ (i : ℤ) < ⌊(top - b.ymax) / p⌋ + ⌈(b.ymax - b.ymin) / p⌉ ∧
        ⌊(b.xmin - left) / p⌋ ≤ j ∧ (j : ℤ) < ⌊(b.xmin - left) / p⌋ + ⌈(b.xmax - b.xmin) / p⌉ then
      match f.pixelHeight C (b.xmin + ((j : ℤ) - ⌊(b.xmin - left) / p⌋ : ℤ) * p) (b.ymax - ((i : ℤ) - ⌊(top - b.ymax) / p⌋ : ℤ) * p) p with
      | .ok z => z
      | _ => none
    else none

end City.Spec
