import Verif.Model.BrickPrint
import Verif.Spec.Poly
/-!
Specification vocabulary for brick prints, and what is assumed of CGAL's Boolean operations: they are exact at the points
that are on no edge (`Gen`), on a class `Ok` of polygons with holes closed under the operations.
-/
namespace City.Spec
open City
variable {K : Type} [Field K] [LinearOrder K]

/-- The point is inside one of the faces. -/
def Ground (C : Cgal K) (fs : List (FacePrint K)) (p : V2 K) : Prop := ∃ f ∈ fs, Interior C f.border p

/-- The point is inside one of the polygons of a polygon set. -/
def Covers (C : Cgal K) (s : C.PSet) (p : V2 K) : Prop := ∃ q ∈ C.pieces s, Interior C q p

/-- No generic point is inside both. -/
def Apart (C : Cgal K) (Gen : V2 K → Prop) (q r : Pwh K) : Prop := ∀ p, Gen p → ¬ (Interior C q p ∧ Interior C r p)

/-- The faces do not overlap. -/
def NoOverlap (C : Cgal K) (Gen : V2 K → Prop) (fs : List (FacePrint K)) : Prop :=
  fs.Pairwise fun f g => Apart C Gen f.border g.border

/-- The height of the plane of a (non vertical) face above a ground point. -/
def zAt (f : FacePrint K) (p : V2 K) : K := (-f.plane.d - f.plane.a * p.x - f.plane.b * p.y) / f.plane.c

/-- What is assumed of the library. `Ok` is a class of valid polygons with holes, `Good` of valid polygon sets, `Gen` the points which
are on no edge. The class contains no polygon with holes so thin that the code takes it for degenerate: those are dropped. -/
structure Lawful (C : Cgal K) (Ok : Pwh K → Prop) (Good : C.PSet → Prop) (Gen : V2 K → Prop) : Prop where
  /-- `to_double` is exact. -/
  exact : ∀ x, C.toDouble x = x
  /-- Generic points are on no edge. -/
  gen_outer : ∀ q, Ok q → ∀ p, Gen p → C.side q.outer p ≠ .boundary
  gen_holes : ∀ q, Ok q → ∀ p, Gen p → ∀ h ∈ q.holes, C.side h p ≠ .boundary
  /-- `bounded_side` depends on the cycle of vertices only. -/
  rotation : ∀ a b : Poly K, a ~r b → ∀ p, C.side a p = C.side b p
  three : ∀ q, Ok q → 3 ≤ q.outer.length
  thick : ∀ q, Ok q → q.holes = [] ∨ ∀ i pl, FacePrint.eps ≤ |FacePrint.area C ⟨i, q, pl⟩|
  /-- A polygon has inner points. -/
  inner : ∀ q, Ok q → ∃ p, Gen p ∧ Interior C q p
  /-- Inner points are in the convex hull of the outer boundary, -/
  hull : ∀ q, Ok q → ∀ p, Gen p → Interior C q p → ∀ a b c : K, (∀ v ∈ q.outer, 0 ≤ a * v.x + b * v.y + c) → 0 ≤ a * p.x + b * p.y + c
  /-- strictly, since the inside is open, -/
  strict : ∀ q, Ok q → ∀ p, Gen p → Interior C q p → ∀ a b c : K, a ≠ 0 ∨ b ≠ 0 → (∀ v ∈ q.outer, 0 ≤ a * v.x + b * v.y + c) → 0 < a * p.x + b * p.y + c
  /-- and its vertices are limits of inner points. -/
  tight : ∀ q, Ok q → ∀ a b c : K, (∀ p, Gen p → Interior C q p → 0 ≤ a * p.x + b * p.y + c) → ∀ v ∈ q.outer, 0 ≤ a * v.x + b * v.y + c
  /-- `CGAL::intersection` returns disjoint polygons which cover the intersection. -/
  inter_ok : ∀ q r, Ok q → Ok r → ∀ s ∈ C.inter q r, Ok s
  inter_iff : ∀ q r, Ok q → Ok r → ∀ p, Gen p → ((∃ s ∈ C.inter q r, Interior C s p) ↔ Interior C q p ∧ Interior C r p)
  inter_apart : ∀ q r, Ok q → Ok r → (C.inter q r).Pairwise (Apart C Gen)
  /-- Polygon sets: the operations are exact, the pieces valid and disjoint, one polygon is one piece. -/
  empty_good : Good C.emptySet
  of_good : ∀ q, Ok q → Good (C.ofPwh q)
  join_good : ∀ s q, Good s → Ok q → Good (C.join s q)
  meet_good : ∀ s q, Good s → Ok q → Good (C.meet s q)
  minus_good : ∀ s q, Good s → Ok q → Good (C.minus s q)
  pieces_ok : ∀ s, Good s → ∀ q ∈ C.pieces s, Ok q
  pieces_apart : ∀ s, Good s → (C.pieces s).Pairwise (Apart C Gen)
  covers_empty : ∀ p, Gen p → ¬ Covers C C.emptySet p
  of_one : ∀ q, Ok q → ∃ q', C.pieces (C.ofPwh q) = [q']
  covers_of : ∀ q, Ok q → ∀ p, Gen p → (Covers C (C.ofPwh q) p ↔ Interior C q p)
  covers_join : ∀ s q, Good s → Ok q → ∀ p, Gen p → (Covers C (C.join s q) p ↔ Covers C s p ∨ Interior C q p)
  covers_meet : ∀ s q, Good s → Ok q → ∀ p, Gen p → (Covers C (C.meet s q) p ↔ Covers C s p ∧ Interior C q p)
  covers_minus : ∀ s q, Good s → Ok q → ∀ p, Gen p → (Covers C (C.minus s q) p ↔ Covers C s p ∧ ¬ Interior C q p)
  isEmpty_iff : ∀ s, Good s → (C.isEmpty s = true ↔ C.pieces s = [])

/-- A face a brick print may hold: a valid border and a plane that is not vertical. -/
def ValidFace (Ok : Pwh K → Prop) (f : FacePrint K) : Prop := Ok f.border ∧ f.plane.c ≠ 0

/-- `f` is a part of `g`: the same identifier and plane, a smaller region. -/
def PartOf (C : Cgal K) (Gen : V2 K → Prop) (f g : FacePrint K) : Prop :=
  f.id = g.id ∧ f.plane = g.plane ∧ ∀ p, Gen p → Interior C f.border p → Interior C g.border p

/-- The faces `fs` are the upper envelope of `gs`: parts of them which do not overlap, cover the same ground, and at each point the face
is the highest. -/
structure Envelope (C : Cgal K) (Gen : V2 K → Prop) (gs fs : List (FacePrint K)) : Prop where
  part : ∀ f ∈ fs, ∃ g ∈ gs, PartOf C Gen f g
  ground : ∀ p, Gen p → (Ground C fs p ↔ Ground C gs p)
  apart : NoOverlap C Gen fs
  highest : ∀ f ∈ fs, ∀ p, Gen p → Interior C f.border p → ∀ g ∈ gs, Interior C g.border p → zAt g p ≤ zAt f p

/-- Inserting the faces one after the other in an empty brick print. -/
def build (C : Cgal K) : List (FacePrint K) → Brick K → Out (Brick K)
  | [], b => .ok b
  | f :: fs, b => do
    let b' ← b.addFace C f
    build C fs b'

end City.Spec
