import Verif.Lemmas.Poly
import Mathlib.Algebra.Order.Field.Rat
import Mathlib.Tactic.NormNum
/-!
Properties C37 - C43: projected faces. `C` is CGAL: all the theorems hold for every behaviour of `bounded_side`,
`is_simple`, `to_double` and the Boolean operations unless a hypothesis says otherwise.
-/
namespace City.Props
open City Spec
variable {K : Type} [Field K] [LinearOrder K] [IsStrictOrderedRing K]

/-- CGAL on rational numbers that are doubles: `to_double` is exact. Everything is simple, the whole ground is inside of every polygon,
and sets of polygons are lists. Only used to show that hypotheses can be met. -/
def roughCgal : Cgal ℚ where
  PSet := List (Pwh ℚ)
  toDouble := id
  simple := fun _ => true
  side := fun _ _ => .bounded
  inter := fun _ _ => []
  emptySet := []
  ofPwh := fun p => [p]
  join := fun s p => s ++ [p]
  meet := fun s _ => s
  minus := fun s _ => s
  isEmpty := fun s => s.isEmpty
  pieces := id

/-! ### C37 -/

/-- C37: the height of a non vertical plane is the only one on the plane, up to the rounding of `to_double`; for a vertical plane
overflow_error is thrown. -/
theorem C37_height (C : Cgal K) (f : FacePrint K) (p : V2 K) :
    (f.plane.c ≠ 0 → ∃ z, OnPlane f.plane p.x p.y z ∧ (∀ z', OnPlane f.plane p.x p.y z' → z' = z) ∧
      f.planeHeight C p = .ok (C.toDouble z)) ∧
    (f.plane.c = 0 → f.planeHeight C p = .thrown .overflowError) := by
  constructor
  · intro h
    refine ⟨(-1 * f.plane.d - f.plane.a * p.x - f.plane.b * p.y) / f.plane.c, ?_, ?_, ?_⟩
    · unfold OnPlane; field_simp; ring
    · intro z' hz
      unfold OnPlane at hz
      rw [eq_div_iff h]; linear_combination hz
    · unfold FacePrint.planeHeight; rw [if_neg h]
  · intro h
    unfold FacePrint.planeHeight; rw [if_pos h]

/-- C37: the version for points of doubles gives a height on the plane with rounded coefficients, and refuses planes whose rounded
`c` is below the machine epsilon (some non vertical planes too). -/
theorem C37_height_inexact (C : Cgal K) (f : FacePrint K) (p : V2 K) :
    (FacePrint.eps ≤ |C.toDouble f.plane.c| → ∃ z, f.planeHeightInexact C p = .ok z ∧
      OnPlane ⟨C.toDouble f.plane.a, C.toDouble f.plane.b, C.toDouble f.plane.c, C.toDouble f.plane.d⟩ p.x p.y z) ∧
    (|C.toDouble f.plane.c| < FacePrint.eps → f.planeHeightInexact C p = .thrown .overflowError) := by
  have heps : (0 : K) < FacePrint.eps := by unfold FacePrint.eps; positivity
  constructor
  · intro h
    have hc : C.toDouble f.plane.c ≠ 0 := by
      intro h0; rw [h0, abs_zero] at h; exact absurd heps (not_lt.2 h)
    refine ⟨_, by unfold FacePrint.planeHeightInexact; rw [if_neg (not_lt.2 h)], ?_⟩
    unfold OnPlane; simp only; field_simp; ring
  · intro h
    unfold FacePrint.planeHeightInexact; rw [if_pos h]

/-- C37: at a vertex of a planar facet the height is the height of the vertex. -/
theorem C37_vertex (C : Cgal K) (f : FacePrint K) (v : V3 K) (hv : OnPlane f.plane v.x v.y v.z) (hc : f.plane.c ≠ 0) :
    f.planeHeight C (ground v) = .ok (C.toDouble v.z) := by
  obtain ⟨z, _, h2, h3⟩ := (C37_height C f (ground v)).1 hc
  rw [h3, h2 v.z hv]

example : (⟨0, ⟨[], []⟩, ⟨1, 2, 4, 3⟩⟩ : FacePrint ℚ).planeHeight roughCgal ⟨1, 2⟩ = .ok (-2) := by
  unfold FacePrint.planeHeight roughCgal; norm_num

/-! ### C38 -/

/-- C38: the border has the ground points of the vertices (up to the sense of rotation, the first one staying first), no hole, the
identifier of the facet; it is not clockwise when it is simple. -/
theorem C38_border (C : Cgal K) (f : Facet K) :
    (FacePrint.ofFacet C f).id = f.id ∧ (FacePrint.ofFacet C f).border.holes = [] ∧
    ((FacePrint.ofFacet C f).border.outer = f.pts.map ground ∨
      ∃ v t, f.pts.map ground = v :: t ∧ (FacePrint.ofFacet C f).border.outer = v :: t.reverse ∧ shoelace (f.pts.map ground) < 0) ∧
    (C.simple (f.pts.map ground) = true → 0 ≤ shoelace (FacePrint.ofFacet C f).border.outer) ∧
    (0 ≤ shoelace (f.pts.map ground) → (FacePrint.ofFacet C f).border.outer = f.pts.map ground) := by
  have harea : ∀ l : Poly K, polyArea l < 0 ↔ shoelace l < 0 := by
    intro l; rw [← polyArea_eq]; constructor <;> intro h <;> linarith
  have ho : (FacePrint.ofFacet C f).border.outer =
      if C.simple (f.pts.map ground) && decide (polyArea (f.pts.map ground) < 0) then reverseOrientation (f.pts.map ground)
      else f.pts.map ground := rfl
  refine ⟨rfl, rfl, ?_, ?_, ?_⟩
  · rw [ho]
    split
    · rename_i h
      rw [Bool.and_eq_true, decide_eq_true_eq] at h
      right
      cases hm : f.pts.map ground with
      | nil => rw [hm] at h; simp [polyArea] at h
      | cons v t => exact ⟨v, t, rfl, rfl, by rw [← harea, ← hm]; exact h.2⟩
    · left; rfl
  · intro hs
    rw [ho, hs]
    simp only [Bool.true_and, decide_eq_true_eq]
    split
    · rename_i h
      rw [← polyArea_eq, polyArea_reverseOrientation]; linarith
    · rename_i h
      rw [← polyArea_eq]; linarith
  · intro h
    rw [ho, if_neg]
    rw [Bool.and_eq_true, decide_eq_true_eq, harea]
    exact fun hh => absurd hh.2 (not_lt.2 h)

/-- C38: the plane goes through the three first vertices and, when the facet is planar, through all of them. -/
theorem C38_plane (C : Cgal K) (f : Facet K) (p q r : V3 K) (t : List (V3 K)) (hf : f.pts = p :: q :: r :: t) :
    (∀ v ∈ [p, q, r], OnPlane (FacePrint.ofFacet C f).plane v.x v.y v.z) ∧
    (Planar f.pts → ∀ v ∈ f.pts, OnPlane (FacePrint.ofFacet C f).plane v.x v.y v.z) ∧
    (NoNormal (FacePrint.ofFacet C f).plane ↔ Collinear3 p q r) := by
  have hp : (FacePrint.ofFacet C f).plane = planeThrough p q r := by
    simp [FacePrint.ofFacet, trace, hf]
  rw [hp]
  refine ⟨?_, ?_, ?_⟩
  · intro v hv
    have := onPlane_planeThrough p q r
    simp only [List.mem_cons, List.not_mem_nil, or_false] at hv
    rcases hv with rfl | rfl | rfl
    · exact this.1
    · exact this.2.1
    · exact this.2.2
  · rintro ⟨n, hn, hall⟩ v hv
    rw [hf] at hall
    exact planeThrough_spec p q r v n hn (hall p (by simp)) (hall q (by simp)) (hall r (by simp)) (hall v (hf ▸ hv))
  · unfold NoNormal Collinear3 planeThrough V3.cross V3.sub
    simp only [V3.mk.injEq]
    constructor
    · rintro ⟨h1, h2, h3⟩
      exact ⟨by linear_combination h1, by linear_combination h2, by linear_combination h3⟩
    · rintro ⟨h1, h2, h3⟩
      exact ⟨by linear_combination h1, by linear_combination h2, by linear_combination h3⟩

/-- C38: all the heights of the vertices of a planar facet are found again from the face print. -/
theorem C38_heights (C : Cgal K) (f : Facet K) (hpl : Planar f.pts) (h3 : 3 ≤ f.pts.length)
    (hc : (FacePrint.ofFacet C f).plane.c ≠ 0) :
    ∀ v ∈ f.pts, (FacePrint.ofFacet C f).planeHeight C (ground v) = .ok (C.toDouble v.z) := by
  intro v hv
  match hf : f.pts, h3 with
  | p :: q :: r :: t, _ => exact C37_vertex C _ v ((C38_plane C f p q r t hf).2.1 hpl v hv) hc

/-- A clockwise unit square at height 3 is turned. -/
example : (FacePrint.ofFacet roughCgal ⟨7, [⟨0, 0, 3⟩, ⟨0, 1, 3⟩, ⟨1, 1, 3⟩, ⟨1, 0, 3⟩]⟩).border.outer =
    [⟨0, 0⟩, ⟨1, 0⟩, ⟨1, 1⟩, ⟨0, 1⟩] := by
  decide +kernel

/-! ### C39 -/

/-- The area of the region of a polygon with holes: the holes are removed. -/
def regionArea (q : Pwh K) : K := |shoelace q.outer| / 2 - (q.holes.map fun h => |shoelace h| / 2).sum

/-- C39 (full statement, false of the code): for borders as CGAL makes them (outer boundary counterclockwise, holes clockwise) the
area is the area of the region. -/
def C39_full : Prop :=
  ∀ (f : FacePrint ℚ), 0 < shoelace f.border.outer → (∀ h ∈ f.border.holes, shoelace h < 0) →
    FacePrint.area roughCgal f = regionArea f.border

/-- C39 refuted: a square of side 4 with a clockwise hole of side 2: 20 instead of 12. -/
theorem C39_refuted : ¬ C39_full := by
  intro h
  have := h ⟨0, ⟨[⟨0, 0⟩, ⟨4, 0⟩, ⟨4, 4⟩, ⟨0, 4⟩], [[⟨1, 1⟩, ⟨1, 3⟩, ⟨3, 3⟩, ⟨3, 1⟩]]⟩, ⟨0, 0, 1, 0⟩⟩
    (by decide +kernel) (by decide +kernel)
  revert this
  simp only [FacePrint.area, regionArea, roughCgal, id, polyArea, fanArea, triArea, shoelace, boundary, List.foldl, List.zip_cons_cons,
    List.cons_append, List.nil_append, List.zip_nil_right, List.map_cons, List.map_nil, List.sum_cons, List.sum_nil]
  norm_num [abs_of_pos, abs_of_neg]

theorem foldl_sub (C : Cgal K) (hs : List (Poly K)) (a : K) :
    hs.foldl (fun s h => s - C.toDouble (polyArea h)) a = a - (hs.map fun h => C.toDouble (polyArea h)).sum := by
  induction hs generalizing a with
  | nil => simp
  | cons h hs ih => rw [List.foldl_cons, ih, List.map_cons, List.sum_cons]; ring

/-- C39: the area is the outer area minus the signed areas of the holes: with clockwise holes, as CGAL makes them, the holes are added;
with counterclockwise holes they are removed.
Missing from the full property: borders with clockwise holes. -/
theorem C39_area_partial (C : Cgal K) (hd : ∀ x, C.toDouble x = x) (f : FacePrint K) (ho : 0 ≤ shoelace f.border.outer) :
    ((∀ h ∈ f.border.holes, 0 ≤ shoelace h) → f.area C = regionArea f.border) ∧
    ((∀ h ∈ f.border.holes, shoelace h ≤ 0) →
      f.area C = regionArea f.border + 2 * (f.border.holes.map fun h => |shoelace h| / 2).sum) := by
  have half : ∀ l : Poly K, polyArea l = shoelace l / 2 := by
    intro l; rw [← polyArea_eq]; ring
  unfold FacePrint.area regionArea
  rw [foldl_sub, abs_of_nonneg ho]
  simp only [hd, half]
  constructor
  · intro h
    congr 2
    apply List.map_congr_left
    intro l hl; rw [abs_of_nonneg (h l hl)]
  · intro h
    have : (f.border.holes.map fun h => shoelace h / 2).sum = - (f.border.holes.map fun h => |shoelace h| / 2).sum := by
      generalize f.border.holes = hs at h
      induction hs with
      | nil => simp
      | cons a hs ih =>
        rw [List.map_cons, List.sum_cons, List.map_cons, List.sum_cons, ih (fun l hl => h l (by simp [hl])),
          abs_of_nonpos (h a (by simp))]
        ring
    rw [this]; ring

/-- C39: exactly when the area is right. With a counterclockwise outer boundary the area exceeds that of the region by twice the area of the clockwise
holes, so it is right if and only if no hole is clockwise. -/
theorem C39_exact (C : Cgal K) (hd : ∀ x, C.toDouble x = x) (f : FacePrint K) (ho : 0 ≤ shoelace f.border.outer) :
    f.area C = regionArea f.border + 2 * ((f.border.holes.filter fun h => decide (shoelace h < 0)).map fun h => |shoelace h| / 2).sum ∧
    (f.area C = regionArea f.border ↔ ∀ h ∈ f.border.holes, 0 ≤ shoelace h) := by
  have half : ∀ l : Poly K, polyArea l = shoelace l / 2 := by
    intro l; rw [← polyArea_eq]; ring
  have main : f.area C = regionArea f.border + 2 * ((f.border.holes.filter fun h => decide (shoelace h < 0)).map fun h => |shoelace h| / 2).sum := by
    unfold FacePrint.area regionArea
    rw [foldl_sub, abs_of_nonneg ho]
    simp only [hd, half]
    have : ∀ hs : List (Poly K), (hs.map fun h => shoelace h / 2).sum =
        (hs.map fun h => |shoelace h| / 2).sum - 2 * ((hs.filter fun h => decide (shoelace h < 0)).map fun h => |shoelace h| / 2).sum := by
      intro hs
      induction hs with
      | nil => simp
      | cons a hs ih =>
        rw [List.map_cons, List.sum_cons, List.map_cons, List.sum_cons, ih, List.filter_cons]
        by_cases ha : shoelace a < 0
        · rw [if_pos (by simpa using ha), List.map_cons, List.sum_cons, abs_of_neg ha]; ring
        · rw [if_neg (by simpa using ha), abs_of_nonneg (not_lt.1 ha)]; ring
    rw [this]; ring
  refine ⟨main, ?_⟩
  rw [main]
  generalize f.border.holes = hs
  have key : ((hs.filter fun h => decide (shoelace h < 0)).map fun h => |shoelace h| / 2).sum = 0 ↔ ∀ h ∈ hs, 0 ≤ shoelace h := by
    have nn : ∀ l : List (Poly K), 0 ≤ (l.map fun h => |shoelace h| / 2).sum := fun l =>
      List.sum_nonneg fun x hx => by
        obtain ⟨y, -, rfl⟩ := List.mem_map.1 hx
        positivity
    induction hs with
    | nil => simp
    | cons a hs ih =>
      rw [List.filter_cons]
      by_cases ha : shoelace a < 0
      · rw [if_pos (by simpa using ha), List.map_cons, List.sum_cons]
        have h1 : 0 < |shoelace a| / 2 := by have := abs_pos.2 (ne_of_lt ha); positivity
        have h2 := nn (hs.filter fun h => decide (shoelace h < 0))
        constructor
        · intro h; linarith
        · intro h; exact absurd (h a (by simp)) (not_le.2 ha)
      · rw [if_neg (by simpa using ha)]
        refine ih.trans ?_
        constructor
        · intro h b hb
          rcases List.mem_cons.1 hb with rfl | hb
          · exact not_lt.1 ha
          · exact h b hb
        · intro h b hb; exact h b (List.mem_cons_of_mem _ hb)
  rw [← key]
  constructor <;> intro h <;> linarith

/-- C39: the area does not depend on the vertex at which the lists start, nor on translations. -/
theorem C39_invariant (C : Cgal K) (f : FacePrint K) (o : Poly K) (hs : List (Poly K)) (v : V2 K) :
    (f.border.outer ~r o → List.Forall₂ (fun a b => a ~r b) f.border.holes hs → ({ f with border := ⟨o, hs⟩ } : FacePrint K).area C = f.area C) ∧
    ({ f with border := ⟨f.border.outer.map (shift v), f.border.holes.map (List.map (shift v))⟩ } : FacePrint K).area C = f.area C := by
  constructor
  · intro h1 h2
    unfold FacePrint.area
    rw [foldl_sub, foldl_sub]
    simp only
    rw [polyArea_isRotated h1]
    congr 2
    generalize f.border.holes = l at h2
    induction h2 with
    | nil => rfl
    | cons h _ ih => rw [List.map_cons, List.map_cons, polyArea_isRotated h, ih]
  · unfold FacePrint.area
    rw [foldl_sub, foldl_sub]
    simp only [polyArea_shift, List.map_map]
    congr 2
    apply List.map_congr_left
    intro l _
    simp only [Function.comp_apply]
    rw [polyArea_shift]

example : FacePrint.area roughCgal ⟨0, ⟨[⟨0, 0⟩, ⟨4, 0⟩, ⟨4, 4⟩, ⟨0, 4⟩], []⟩, ⟨0, 0, 1, 0⟩⟩ = 16 := by
  decide +kernel

/-! ### C40 -/

theorem contains_iff (C : Cgal K) (f : FacePrint K) (p : V2 K) : f.contains C p = true ↔ InRegion C f.border p := by
  unfold FacePrint.contains InRegion
  simp only [Bool.and_eq_true, bne_iff_ne, ne_eq, List.all_eq_true]

/-- C40: for a face print that is not degenerate, the height is the height of the plane in the region, and zero elsewhere. -/
theorem C40_height (C : Cgal K) (f : FacePrint K) (p : V2 K) (hd : f.isDegenerate C = false) :
    (InRegion C f.border p → f.height C p = f.planeHeight C p ∧ ∃ z, OnPlane f.plane p.x p.y z ∧ f.height C p = .ok (C.toDouble z)) ∧
    (¬ InRegion C f.border p → f.height C p = .ok 0) := by
  have hc : f.plane.c ≠ 0 := by
    intro h
    simp [FacePrint.isDegenerate, FacePrint.isPerpendicular, h] at hd
  obtain ⟨z, h1, _, h3⟩ := (C37_height C f p).1 hc
  constructor
  · intro h
    rw [← contains_iff] at h
    have : f.height C p = .ok (C.toDouble z) := by
      unfold FacePrint.height
      rw [h3, Out.ok_bind, hd, h]; rfl
    exact ⟨by rw [this, h3], z, h1, this⟩
  · intro h
    have h' : f.contains C p = false := by
      rw [← Bool.not_eq_true, contains_iff]; exact h
    unfold FacePrint.height
    rw [h3, Out.ok_bind, hd, h']; rfl

/-- C40: what happens for the degenerate ones: a vertical face throws instead of giving zero, a face with holes and no area gives zero
everywhere. -/
theorem C40_degenerate (C : Cgal K) (f : FacePrint K) (p : V2 K) (hd : f.isDegenerate C = true) :
    (f.plane.c = 0 → f.height C p = .thrown .overflowError) ∧ (f.plane.c ≠ 0 → f.height C p = .ok 0) := by
  constructor
  · intro h
    unfold FacePrint.height
    rw [(C37_height C f p).2 h]; rfl
  · intro h
    obtain ⟨z, _, _, h3⟩ := (C37_height C f p).1 h
    unfold FacePrint.height
    rw [h3, Out.ok_bind, hd]; rfl

/-- C40: a face is degenerate exactly when it is vertical, or has holes and a computed area below the machine epsilon. -/
theorem C40_degenerate_iff (C : Cgal K) (f : FacePrint K) :
    f.isDegenerate C = true ↔ f.plane.c = 0 ∨ (f.border.holes ≠ [] ∧ |f.area C| < FacePrint.eps) := by
  unfold FacePrint.isDegenerate FacePrint.isPerpendicular
  cases h : f.border.holes <;> simp

example : (⟨0, ⟨[⟨0, 0⟩, ⟨4, 0⟩, ⟨4, 4⟩, ⟨0, 4⟩], []⟩, ⟨0, 0, 1, -2⟩⟩ : FacePrint ℚ).isDegenerate roughCgal = false := by
  decide +kernel

/-! ### C41 -/

/-- The same plane, or two planes without normal. -/
def PlaneAgree (p q : Plane K) : Prop := (NoNormal p ∧ NoNormal q) ∨ (¬ NoNormal p ∧ SamePlane p q)

theorem planeAgree_refl (p : Plane K) : PlaneAgree p p := by
  by_cases h : NoNormal p
  · exact Or.inl ⟨h, h⟩
  · exact Or.inr ⟨h, 1, one_pos, by simp⟩

theorem samePlane_noNormal {p q : Plane K} (h : SamePlane p q) : NoNormal q ↔ NoNormal p := by
  obtain ⟨k, hk, rfl⟩ := h
  unfold NoNormal
  simp [hk.ne']

theorem planeAgree_symm {p q : Plane K} (h : PlaneAgree p q) : PlaneAgree q p := by
  rcases h with ⟨h1, h2⟩ | ⟨h1, h2⟩
  · exact Or.inl ⟨h2, h1⟩
  · refine Or.inr ⟨fun h => h1 ((samePlane_noNormal h2).1 h), ?_⟩
    obtain ⟨k, hk, rfl⟩ := h2
    refine ⟨k⁻¹, inv_pos.2 hk, ?_⟩
    ext <;> simp only <;> field_simp

theorem planeAgree_trans {p q r : Plane K} (h : PlaneAgree p q) (h' : PlaneAgree q r) : PlaneAgree p r := by
  rcases h with ⟨h1, h2⟩ | ⟨h1, h2⟩
  · rcases h' with ⟨_, h4⟩ | ⟨h3, _⟩
    · exact Or.inl ⟨h1, h4⟩
    · exact absurd h2 h3
  · rcases h' with ⟨h3, _⟩ | ⟨_, h4⟩
    · exact absurd ((samePlane_noNormal h2).1 h3) h1
    · refine Or.inr ⟨h1, ?_⟩
      obtain ⟨k, hk, rfl⟩ := h2
      obtain ⟨l, hl, rfl⟩ := h4
      exact ⟨l * k, mul_pos hl hk, by simp only [mul_assoc]⟩

theorem foldl_and {α : Type} (p : α → Bool) (l : List α) (b : Bool) : l.foldl (fun b x => b && p x) b = (b && l.all p) := by
  induction l generalizing b with
  | nil => simp
  | cons x l ih => rw [List.foldl_cons, ih, List.all_cons, Bool.and_assoc]

/-- C41: what `==` compares: the cyclic order of the vertices of the outer boundary and of each hole, in the order of the holes, and the
plane up to a positive factor; not the identifier. -/
theorem C41_eq_iff (f g : FacePrint K) : f.eq g = true ↔
    (f.border.outer ~r g.border.outer) ∧ List.Forall₂ (fun a b => a ~r b) f.border.holes g.border.holes ∧ PlaneAgree f.plane g.plane := by
  unfold FacePrint.eq FacePrint.equalBorder
  rw [Bool.and_eq_true, Bool.and_eq_true, beq_iff_eq, foldl_and, planeEq_iff, Bool.and_eq_true, List.forall₂_iff_zip]
  simp only [polyEq, decide_eq_true_eq, List.all_eq_true, Prod.forall]
  constructor
  · rintro ⟨⟨h1, h2, h3⟩, h4⟩; exact ⟨h2, ⟨h1, fun h => h3 _ _ h⟩, h4⟩
  · rintro ⟨h2, ⟨h1, h3⟩, h4⟩; exact ⟨⟨h1, h2, fun _ _ h => h3 h⟩, h4⟩

/-- C41: `==` is an equivalence relation. -/
theorem C41_equivalence : Equivalence fun f g : FacePrint K => f.eq g = true := by
  refine ⟨fun f => ?_, fun {f g} h => ?_, fun {f g k} h h' => ?_⟩
  · rw [C41_eq_iff]
    exact ⟨List.IsRotated.refl _, List.forall₂_same.2 (fun l _ => List.IsRotated.refl l), planeAgree_refl _⟩
  · rw [C41_eq_iff] at h ⊢
    exact ⟨h.1.symm, h.2.1.flip.imp fun _ _ h => List.IsRotated.symm h, planeAgree_symm h.2.2⟩
  · rw [C41_eq_iff] at h h' ⊢
    refine ⟨h.1.trans h'.1, ?_, planeAgree_trans h.2.2 h'.2.2⟩
    have h1 := h.2.1
    have h2 := h'.2.1
    generalize f.border.holes = a at h1
    generalize k.border.holes = c at h2
    generalize g.border.holes = b at h1 h2
    induction h1 generalizing c with
    | nil => cases h2; exact .nil
    | cons ha _ ih =>
      cases h2 with
      | cons hb hbs => exact .cons (ha.trans hb) (ih _ hbs)

/-- C41: the identifier is ignored. -/
theorem C41_id (f g : FacePrint K) (i j : Nat) : FacePrint.eq { f with id := i } { g with id := j } = f.eq g := rfl

/-- C41: equal face prints have the same height everywhere (without rounding, and for a `bounded_side` that only depends on the cyclic
order of the vertices). -/
theorem C41_same_height (C : Cgal K) (f g : FacePrint K) (h : f.eq g = true) (p : V2 K) : f.planeHeight C p = g.planeHeight C p := by
  rw [C41_eq_iff] at h
  rcases h.2.2 with ⟨h1, h2⟩ | ⟨_, k, hk, h2⟩
  · unfold FacePrint.planeHeight; rw [if_pos h1.2.2, if_pos h2.2.2]
  · unfold FacePrint.planeHeight
    rw [h2]
    simp only [mul_eq_zero, hk.ne', false_or]
    split
    · rfl
    · rename_i hc
      congr 2
      field_simp

example : FacePrint.eq (⟨1, ⟨[⟨0, 0⟩, ⟨1, 0⟩, ⟨0, 1⟩], []⟩, ⟨0, 0, 1, -2⟩⟩ : FacePrint ℚ)
    ⟨2, ⟨[⟨1, 0⟩, ⟨0, 1⟩, ⟨0, 0⟩], []⟩, ⟨0, 0, 3, -6⟩⟩ = true := by decide +kernel

/-! ### C42 -/

/-- The plane moved by a vector: the points of the plane are moved. -/
def movedPlane (r : V3 K) (p : Plane K) : Plane K := ⟨p.a, p.b, p.c, p.d - p.a * r.x - p.b * r.y - p.c * r.z⟩

/-- It is the moved plane indeed. -/
theorem movedPlane_spec (r : V3 K) (p : Plane K) (x y z : K) :
    OnPlane (movedPlane r p) (x + r.x) (y + r.y) (z + r.z) ↔ OnPlane p x y z := by
  unfold OnPlane movedPlane
  constructor <;> intro h <;> linear_combination h

/-- A polygon that can be stored as a ring: not empty, and its last vertex is not the first one again. -/
def OpenRing (p : Poly K) : Prop := ∃ v t, p = v :: t ∧ t ≠ [] ∧ t.getLast? ≠ some v

/-- C42 (full statement, false of the code): exporting and importing translates the face print. -/
def C42_full : Prop :=
  ∀ (f : FacePrint ℚ) (r : V3 ℚ), (∀ p ∈ f.border.outer :: f.border.holes, OpenRing p) →
    FacePrint.ofOgr (f.toOgr roughCgal r) =
      .ok ⟨f.id, ⟨f.border.outer.map (shift (ground r)), f.border.holes.map (List.map (shift (ground r)))⟩, movedPlane r f.plane⟩

theorem ring_round (C : Cgal K) (hd : ∀ x, C.toDouble x = x) (r : V3 K) (p : Poly K) (hp : OpenRing p) :
    ringFromOgr (ringToOgr C r p) = .ok (p.map (shift (ground r))) := by
  obtain ⟨v, t, rfl, ht, hl⟩ := hp
  have hm : (v :: t).map (fun v => (⟨C.toDouble (v.x + r.x), C.toDouble (v.y + r.y)⟩ : V2 K)) = (v :: t).map (shift (ground r)) := by
    apply List.map_congr_left; intro w _; simp [hd, shift, ground]
  unfold ringToOgr
  rw [hm]
  have hne : ((v :: t).map (shift (ground r))).getLast? ≠ some (shift (ground r) v) := by
    rw [List.getLast?_map]
    obtain ⟨w, u, rfl⟩ : ∃ w u, t = w :: u := by
      cases t with
      | nil => exact absurd rfl ht
      | cons w u => exact ⟨w, u, rfl⟩
    rw [List.getLast?_cons_cons]
    cases hg : (w :: u).getLast? with
    | none => simp
    | some z =>
      rw [hg] at hl
      simp only [Option.map_some, ne_eq, Option.some.injEq]
      intro he
      apply hl
      rw [Option.some.injEq]
      have h1 := congrArg V2.x he
      have h2 := congrArg V2.y he
      simp only [shift] at h1 h2
      ext
      · exact add_right_cancel h1
      · exact add_right_cancel h2
  rw [List.map_cons] at hne ⊢
  unfold closeRing
  simp only
  rw [if_neg hne]
  unfold ringFromOgr
  rw [if_neg (by simp), List.dropLast_concat]

/-- C42: the identifier and the translated border are found again; the plane has the reference height added to its fourth coefficient.
Missing from the full property: the translated plane. -/
theorem C42_round_trip_partial (C : Cgal K) (hd : ∀ x, C.toDouble x = x) (f : FacePrint K) (r : V3 K)
    (h : ∀ p ∈ f.border.outer :: f.border.holes, OpenRing p) :
    FacePrint.ofOgr (f.toOgr C r) =
      .ok ⟨f.id, ⟨f.border.outer.map (shift (ground r)), f.border.holes.map (List.map (shift (ground r)))⟩,
        ⟨f.plane.a, f.plane.b, f.plane.c, f.plane.d + r.z⟩⟩ := by
  unfold FacePrint.ofOgr FacePrint.toOgr pwhToOgr
  simp only
  have hh : Out.mapM ringFromOgr (f.border.holes.map (ringToOgr C r)) = .ok (f.border.holes.map (List.map (shift (ground r)))) := by
    have := h
    generalize f.border.holes = hs at this
    induction hs with
    | nil => rfl
    | cons a hs ih =>
      rw [List.map_cons, Out.mapM_cons, ring_round C hd r a (this a (by simp)), Out.ok_bind,
        ih (fun p hp => this p (by simp at hp ⊢; tauto))]
      rfl
  rw [hh, Out.ok_bind, ring_round C hd r _ (h _ (by simp)), Out.ok_bind]
  simp only [hd]

/-- C42: the stored plane is the translated one exactly when `r.z + a r.x + b r.y + c r.z = 0`, in particular with the origin as
reference. -/
theorem C42_plane_iff (C : Cgal K) (hd : ∀ x, C.toDouble x = x) (f : FacePrint K) (r : V3 K) :
    (f.toOgr C r).plane = movedPlane r f.plane ↔ r.z + f.plane.a * r.x + f.plane.b * r.y + f.plane.c * r.z = 0 := by
  unfold FacePrint.toOgr movedPlane
  simp only [hd, Plane.mk.injEq, true_and]
  constructor <;> intro h <;> linear_combination h

/-- C42 refuted: a horizontal face at height 0 exported with a reference 100 above: the stored plane is at height -100. -/
theorem C42_refuted : ¬ C42_full := by
  intro h
  have h1 := h ⟨0, ⟨[⟨0, 0⟩, ⟨1, 0⟩, ⟨0, 1⟩], []⟩, ⟨0, 0, 1, 0⟩⟩ ⟨0, 0, 100⟩ (by
    intro p hp
    simp only [List.mem_cons, List.not_mem_nil, or_false] at hp
    subst hp
    exact ⟨_, _, rfl, by simp, by decide +kernel⟩)
  have h2 := C42_round_trip_partial roughCgal (fun _ => rfl) ⟨0, ⟨[⟨0, 0⟩, ⟨1, 0⟩, ⟨0, 1⟩], []⟩, ⟨0, 0, 1, 0⟩⟩ ⟨0, 0, 100⟩ (by
    intro p hp
    simp only [List.mem_cons, List.not_mem_nil, or_false] at hp
    subst hp
    exact ⟨_, _, rfl, by simp, by decide +kernel⟩)
  rw [h1] at h2
  simp [movedPlane] at h2
  norm_num at h2

/-- C42: a face print without any vertex cannot be read back: length_error. -/
theorem C42_empty (C : Cgal K) (f : FacePrint K) (r : V3 K) (h : f.border = ⟨[], []⟩) :
    FacePrint.ofOgr (f.toOgr C r) = .thrown .lengthError := by
  simp [FacePrint.ofOgr, FacePrint.toOgr, pwhToOgr, h, ringToOgr, closeRing, ringFromOgr]

/-! ### C43 -/

/-- C43 (full statement, false of the code): the facets kept are those that are not seen as a line from above. -/
def C43_full : Prop :=
  ∀ (fs : List (Facet ℚ)), (∀ f ∈ fs, 3 ≤ f.pts.length ∧ Planar f.pts) →
    ∀ f ∈ fs, ¬ SeenAsLine f.pts → ∃ g ∈ orthoprint roughCgal fs, g.id = f.id

theorem ofFacet_kept (C : Cgal K) (f : Facet K) (p q r : V3 K) (t : List (V3 K)) (hf : f.pts = p :: q :: r :: t) :
    ((FacePrint.ofFacet C f).isEmpty || (FacePrint.ofFacet C f).isDegenerate C) = decide (triArea (ground p) (ground q) (ground r) = 0) := by
  have h1 : (FacePrint.ofFacet C f).isEmpty = false := by
    unfold FacePrint.isEmpty FacePrint.ofFacet trace
    simp only [hf, List.map_cons]
    split
    · rfl
    · rfl
  have h2 : (FacePrint.ofFacet C f).isDegenerate C = decide ((FacePrint.ofFacet C f).plane.c = 0) := by
    unfold FacePrint.isDegenerate FacePrint.isPerpendicular
    simp [FacePrint.ofFacet]
  have h3 : (FacePrint.ofFacet C f).plane.c = (p.x - r.x) * (q.y - r.y) - (q.x - r.x) * (p.y - r.y) := by
    simp [FacePrint.ofFacet, trace, hf, planeThrough]
  rw [h1, h2, h3, Bool.false_or, decide_eq_decide]
  unfold triArea ground
  simp only
  constructor
  · intro h; rw [div_eq_zero_iff]; left; linear_combination h
  · intro h
    have := (div_eq_zero_iff.1 h).resolve_right two_ne_zero
    linear_combination this

/-- C43: exactly the facets whose three first vertices are not on one line when seen from above are kept, in the same order,
with their identifiers and their projections. -/
theorem C43_exact (C : Cgal K) (fs : List (Facet K)) (h : ∀ f ∈ fs, 3 ≤ f.pts.length) :
    orthoprint C fs = (fs.filter fun f =>
      match f.pts with
      | p :: q :: r :: _ => decide (triArea (ground p) (ground q) (ground r) ≠ 0)
      | _ => false).map (FacePrint.ofFacet C) := by
  unfold orthoprint
  rw [List.filter_map]
  congr 1
  apply List.filter_congr
  intro f hf
  have := h f hf
  match hp : f.pts, this with
  | p :: q :: r :: t, _ =>
    simp only [Function.comp_apply]
    rw [ofFacet_kept C f p q r t hp]
    by_cases h0 : triArea (ground p) (ground q) (ground r) = 0 <;> simp [h0]

theorem seenAsLine_area {pts : List (V3 K)} (h : SeenAsLine pts) {p q r : V3 K} (hp : p ∈ pts) (hq : q ∈ pts) (hr : r ∈ pts) :
    triArea (ground p) (ground q) (ground r) = 0 := by
  obtain ⟨a, b, c, hab, hall⟩ := h
  have e1 := hall p hp
  have e2 := hall q hq
  have e3 := hall r hr
  unfold triArea ground
  simp only
  rw [div_eq_zero_iff]; left
  have h1 : a * ((q.x - p.x) * (r.y - p.y) - (r.x - p.x) * (q.y - p.y)) = 0 := by
    linear_combination (r.y - p.y) * (e2 - e1) - (q.y - p.y) * (e3 - e1)
  have h2 : b * ((q.x - p.x) * (r.y - p.y) - (r.x - p.x) * (q.y - p.y)) = 0 := by
    linear_combination (q.x - p.x) * (e3 - e1) - (r.x - p.x) * (e2 - e1)
  rcases hab with ha | hb
  · exact (mul_eq_zero.1 h1).resolve_left ha
  · exact (mul_eq_zero.1 h2).resolve_left hb

theorem area_seenAsLine {p q r : V3 K} {t : List (V3 K)} (hpl : Planar (p :: q :: r :: t)) (hcol : ¬ Collinear3 p q r)
    (h0 : triArea (ground p) (ground q) (ground r) = 0) : SeenAsLine (p :: q :: r :: t) := by
  have hc : (planeThrough p q r).c = 0 := by
    unfold triArea ground at h0
    have := (div_eq_zero_iff.1 h0).resolve_right two_ne_zero
    unfold planeThrough
    simp only at this ⊢
    linear_combination this
  have hall : ∀ v ∈ p :: q :: r :: t, OnPlane (planeThrough p q r) v.x v.y v.z := by
    obtain ⟨n, hn, hall⟩ := hpl
    intro v hv
    exact planeThrough_spec p q r v n hn (hall p (by simp)) (hall q (by simp)) (hall r (by simp)) (hall v hv)
  refine ⟨(planeThrough p q r).a, (planeThrough p q r).b, (planeThrough p q r).d, ?_, ?_⟩
  · by_contra hne
    rw [not_or, not_not, not_not] at hne
    apply hcol
    have h1 := hne.1; have h2 := hne.2
    unfold planeThrough at h1 h2 hc
    simp only at h1 h2 hc
    unfold Collinear3 V3.cross V3.sub
    simp only [V3.mk.injEq]
    exact ⟨by linear_combination h1, by linear_combination h2, by linear_combination hc⟩
  · intro v hv
    have := hall v hv
    unfold OnPlane at this
    rw [hc] at this
    linear_combination this

/-- C43: for planar facets whose three first vertices are not collinear, exactly those not seen as a line are kept, in order.
Missing from the full property: facets that begin with three collinear vertices, which are always dropped. -/
theorem C43_orthoprint_partial (C : Cgal K) (fs : List (Facet K))
    (h : ∀ f ∈ fs, ∃ p q r t, f.pts = p :: q :: r :: t ∧ ¬ Collinear3 p q r ∧ Planar f.pts) :
    ∃ keep : Facet K → Bool, (∀ f ∈ fs, keep f = true ↔ ¬ SeenAsLine f.pts) ∧
      orthoprint C fs = (fs.filter keep).map (FacePrint.ofFacet C) ∧ (orthoprint C fs).map (·.id) = (fs.filter keep).map (·.id) := by
  refine ⟨_, ?_, C43_exact C fs ?_, ?_⟩
  · intro f hf
    obtain ⟨p, q, r, t, hp, hcol, hpl⟩ := h f hf
    simp only [hp, decide_eq_true_eq]
    rw [hp] at hpl
    constructor
    · intro hne hs; exact hne (seenAsLine_area hs (by simp) (by simp) (by simp))
    · intro hns h0; exact hns (area_seenAsLine hpl hcol h0)
  · intro f hf
    obtain ⟨p, q, r, t, hp, _⟩ := h f hf
    simp [hp]
  · rw [C43_exact C fs (fun f hf => by obtain ⟨p, q, r, t, hp, _⟩ := h f hf; simp [hp]), List.map_map]
    rfl

/-- A square whose first side is given with its middle. -/
def midSquare : Facet ℚ := ⟨5, [⟨0, 0, 1⟩, ⟨1, 0, 1⟩, ⟨2, 0, 1⟩, ⟨2, 2, 1⟩, ⟨0, 2, 1⟩]⟩

/-- C43 refuted: a horizontal square whose three first vertices are on one side is dropped. -/
theorem C43_refuted : ¬ C43_full := by
  intro h
  obtain ⟨g, hg, _⟩ := h [midSquare] (by
      intro f hf
      rw [List.mem_singleton] at hf; subst hf
      refine ⟨by decide, ⟨0, 0, 1, -1⟩, ?_, ?_⟩
      · unfold NoNormal; norm_num
      · intro p hp
        simp only [midSquare, List.mem_cons, List.not_mem_nil, or_false] at hp
        rcases hp with rfl | rfl | rfl | rfl | rfl <;> (unfold OnPlane; norm_num)) midSquare (by simp) (by
      intro hs
      have := seenAsLine_area hs (p := ⟨0, 0, 1⟩) (q := ⟨2, 0, 1⟩) (r := ⟨2, 2, 1⟩) (by simp [midSquare]) (by simp [midSquare])
        (by simp [midSquare])
      unfold triArea ground at this
      norm_num at this)
  have : orthoprint roughCgal [midSquare] = [] := by decide +kernel
  rw [this] at hg
  simp at hg

/-- A facet meeting the hypotheses of C43, and kept. -/
example : (orthoprint roughCgal [⟨5, [⟨0, 0, 1⟩, ⟨2, 0, 1⟩, ⟨2, 2, 1⟩]⟩, ⟨6, [⟨0, 0, 1⟩, ⟨2, 0, 1⟩, ⟨2, 0, 2⟩]⟩]).map (·.id) = [5] := by
  decide +kernel

end City.Props
