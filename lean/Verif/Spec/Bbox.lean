import Verif.Model.Bbox
/-!
Specification vocabulary for bounding boxes: the IEEE order and containment.
-/
namespace City.Spec
open City

/-- IEEE `a ≤ b` on doubles (false when an operand is NaN). -/
def Le : Dbl → Dbl → Prop
  | .nan, _ => False
  | _, .nan => False
  | .ninf, _ => True
  | _, .pinf => True
  | .fin a, .fin b => a ≤ b
  | _, _ => False

/-- The point lies in the box. -/
def InBox (p : V3 Dbl) (b : Bbox) : Prop :=
  Le b.xmin p.x ∧ Le p.x b.xmax ∧ Le b.ymin p.y ∧ Le p.y b.ymax ∧ Le b.zmin p.z ∧ Le p.z b.zmax

/-- Box `a` is inside box `b`, extreme by extreme. -/
def Inside (a b : Bbox) : Prop :=
  Le b.xmin a.xmin ∧ Le a.xmax b.xmax ∧ Le b.ymin a.ymin ∧ Le a.ymax b.ymax ∧
  Le b.zmin a.zmin ∧ Le a.zmax b.zmax

/-- No extreme of the box is NaN. -/
def BoxReal (b : Bbox) : Prop :=
  b.xmin ≠ .nan ∧ b.xmax ≠ .nan ∧ b.ymin ≠ .nan ∧ b.ymax ≠ .nan ∧ b.zmin ≠ .nan ∧ b.zmax ≠ .nan

/-- No coordinate of the point is NaN. -/
def PtReal (p : V3 Dbl) : Prop := p.x ≠ .nan ∧ p.y ≠ .nan ∧ p.z ≠ .nan

/-- `b` is the tight box of the points `ps`: it contains them and lies in every box containing them. -/
def TightBox (b : Bbox) (ps : List (V3 Dbl)) : Prop :=
  BoxReal b ∧ (∀ p ∈ ps, InBox p b) ∧
  ∀ c, BoxReal c → (∀ p ∈ ps, InBox p c) → Inside b c

end City.Spec
