import Verif.Lemmas.Bbox
/-!
Properties C03 and C04: unions of bounding boxes, the box computed from points.
-/
namespace City.Props
open City Spec

/-- C03: union is commutative on boxes without NaN. -/
theorem C03_union_comm (a b : Bbox) (ha : BoxReal a) (hb : BoxReal b) : a.union b = b.union a := by
  apply Inside.antisymm
  · exact (union_inside ha hb).2 ((union_inside hb ha).1 (Inside.refl (hb.union ha))).symm
  · exact (union_inside hb ha).2 ((union_inside ha hb).1 (Inside.refl (ha.union hb))).symm

/-- C03: union is associative on boxes without NaN. -/
theorem C03_union_assoc (a b c : Bbox) (ha : BoxReal a) (hb : BoxReal b) (hc : BoxReal c) :
    (a.union b).union c = a.union (b.union c) := by
  have key : ∀ d, Inside ((a.union b).union c) d ↔ Inside (a.union (b.union c)) d := by
    intro d
    rw [union_inside (ha.union hb) hc, union_inside ha hb, union_inside ha (hb.union hc),
      union_inside hb hc, and_assoc]
  exact Inside.antisymm ((key _).2 (Inside.refl (ha.union (hb.union hc))))
    ((key _).1 (Inside.refl ((ha.union hb).union hc)))

/-- C03: union is idempotent, on every box (even with NaN). -/
theorem C03_union_idem (a : Bbox) : a.union a = a := by
  simp [Bbox.union, Dbl.cmin, Dbl.cmax]

/-- C03: the empty box is neutral on boxes without NaN. -/
theorem C03_union_empty (a : Bbox) (ha : BoxReal a) :
    Bbox.empty.union a = a ∧ a.union Bbox.empty = a := by
  have h : Bbox.empty.union a = a := by
    apply Inside.antisymm
    · exact (union_inside BoxReal.empty ha).2 ⟨empty_inside ha, Inside.refl ha⟩
    · exact ((union_inside BoxReal.empty ha).1 (Inside.refl (BoxReal.empty.union ha))).2
  exact ⟨h, by rw [C03_union_comm a _ ha BoxReal.empty, h]⟩

/-- C03: the union is the least box containing both operands. -/
theorem C03_union_least (a b : Bbox) (ha : BoxReal a) (hb : BoxReal b) :
    Inside a (a.union b) ∧ Inside b (a.union b) ∧
    ∀ c, Inside a c → Inside b c → Inside (a.union b) c := by
  have h := (union_inside ha hb).1 (Inside.refl (ha.union hb))
  exact ⟨h.1, h.2, fun c h1 h2 => (union_inside ha hb).2 ⟨h1, h2⟩⟩

/-- C03: a box all of whose extremes are NaN is ignored on the right of a union, and absorbs on the left:
NaN makes the union non commutative. -/
theorem C03_union_nan (a : Bbox) :
    a.union ⟨.nan, .nan, .nan, .nan, .nan, .nan⟩ = a ∧
    Bbox.union ⟨.nan, .nan, .nan, .nan, .nan, .nan⟩ a = ⟨.nan, .nan, .nan, .nan, .nan, .nan⟩ := by
  have h1 : ∀ x, Dbl.lt .nan x = false := fun x => by cases x <;> rfl
  have h2 : ∀ x, Dbl.lt x .nan = false := fun x => by cases x <;> rfl
  simp [Bbox.union, Dbl.cmin, Dbl.cmax, h1, h2]

/-- C03: NaN coordinate by coordinate. An extreme of the union is computed from the two extremes of that coordinate
alone: a NaN on the left stays, a NaN on the right is ignored, and without NaN the result is the smaller minimum or the
larger maximum. -/
theorem C03_union_coordinates (a b : Bbox) :
    ∀ c ∈ [(a.xmin, b.xmin, (a.union b).xmin), (a.ymin, b.ymin, (a.union b).ymin), (a.zmin, b.zmin, (a.union b).zmin)],
      (c.1 = .nan → c.2.2 = .nan) ∧ (c.2.1 = .nan → c.2.2 = c.1) ∧
      (c.1 ≠ .nan → c.2.1 ≠ .nan → Le c.2.2 c.1 ∧ Le c.2.2 c.2.1 ∧ (c.2.2 = c.1 ∨ c.2.2 = c.2.1)) := by
  have key : ∀ x y : Dbl, (x = .nan → Dbl.cmin x y = .nan) ∧ (y = .nan → Dbl.cmin x y = x) ∧
      (x ≠ .nan → y ≠ .nan → Le (Dbl.cmin x y) x ∧ Le (Dbl.cmin x y) y ∧
        (Dbl.cmin x y = x ∨ Dbl.cmin x y = y)) := by
    intro x y
    refine ⟨?_, ?_, ?_⟩
    · rintro rfl; cases y <;> rfl
    · rintro rfl; cases x <;> rfl
    · intro hx hy
      unfold Dbl.cmin
      split <;> rename_i h <;> cases x <;> cases y <;> simp_all [Dbl.lt, Le] <;> linarith
  intro c hc
  simp only [List.mem_cons, List.not_mem_nil, or_false] at hc
  rcases hc with rfl | rfl | rfl <;> exact key _ _

/-- C03: the same for the maxima. -/
theorem C03_union_coordinates_max (a b : Bbox) :
    ∀ c ∈ [(a.xmax, b.xmax, (a.union b).xmax), (a.ymax, b.ymax, (a.union b).ymax), (a.zmax, b.zmax, (a.union b).zmax)],
      (c.1 = .nan → c.2.2 = .nan) ∧ (c.2.1 = .nan → c.2.2 = c.1) ∧
      (c.1 ≠ .nan → c.2.1 ≠ .nan → Le c.1 c.2.2 ∧ Le c.2.1 c.2.2 ∧ (c.2.2 = c.1 ∨ c.2.2 = c.2.1)) := by
  have key : ∀ x y : Dbl, (x = .nan → Dbl.cmax x y = .nan) ∧ (y = .nan → Dbl.cmax x y = x) ∧
      (x ≠ .nan → y ≠ .nan → Le x (Dbl.cmax x y) ∧ Le y (Dbl.cmax x y) ∧
        (Dbl.cmax x y = x ∨ Dbl.cmax x y = y)) := by
    intro x y
    refine ⟨?_, ?_, ?_⟩
    · rintro rfl; cases y <;> rfl
    · rintro rfl; cases x <;> rfl
    · intro hx hy
      unfold Dbl.cmax
      split <;> rename_i h <;> cases x <;> cases y <;> simp_all [Dbl.lt, Le] <;> linarith
  intro c hc
  simp only [List.mem_cons, List.not_mem_nil, or_false] at hc
  rcases hc with rfl | rfl | rfl <;> exact key _ _

/-- C03: `to_cgal` reorders the extremes so that the CGAL box has the same minima and maxima. -/
theorem C03_to_cgal (b : Bbox) :
    b.toCgal.take 3 = [b.xmin, b.ymin, b.zmin] ∧ b.toCgal.drop 3 = [b.xmax, b.ymax, b.zmax] := ⟨rfl, rfl⟩

/-- C04: the box computed from a list of points without NaN is the tightest box around them. -/
theorem C04_tight (ps : List (V3 Dbl)) (h : ∀ p ∈ ps, PtReal p) : TightBox (Bbox.ofPoints ps) ps :=
  tight_ofPoints h

/-- C04: the box does not depend on the order (nor on the multiplicity) of the points. -/
theorem C04_order_independent (ps qs : List (V3 Dbl)) (h : ∀ p ∈ ps, PtReal p)
    (hpq : ∀ p, p ∈ ps ↔ p ∈ qs) : Bbox.ofPoints ps = Bbox.ofPoints qs := by
  apply tight_unique (tight_ofPoints h)
  have h' := tight_ofPoints (ps := qs) (fun p hp => h p ((hpq p).2 hp))
  exact ⟨h'.1, fun p hp => h'.2.1 p ((hpq p).1 hp),
    fun c hc hin => h'.2.2 c hc fun p hp => hin p ((hpq p).2 hp)⟩

/-- C04: without points the box is the empty box, and the empty box contains no point. -/
theorem C04_empty : Bbox.ofPoints [] = Bbox.empty ∧ ∀ p, ¬ InBox p Bbox.empty := by
  refine ⟨rfl, fun p h => ?_⟩
  obtain ⟨h1, h2, -⟩ := h
  revert h1 h2
  cases p.x <;> simp [Bbox.empty, Le]

/-- C04: each extreme of the box is attained by a point of a non empty list. -/
theorem C04_attained (ps : List (V3 Dbl)) (h : ∀ p ∈ ps, PtReal p) (hne : ps ≠ []) :
    (∃ p ∈ ps, p.x = (Bbox.ofPoints ps).xmin) ∧ (∃ p ∈ ps, p.x = (Bbox.ofPoints ps).xmax) ∧
    (∃ p ∈ ps, p.y = (Bbox.ofPoints ps).ymin) ∧ (∃ p ∈ ps, p.y = (Bbox.ofPoints ps).ymax) ∧
    (∃ p ∈ ps, p.z = (Bbox.ofPoints ps).zmin) ∧ (∃ p ∈ ps, p.z = (Bbox.ofPoints ps).zmax) := by
  have step : ∀ (qs : List (V3 Dbl)) (p : V3 Dbl),
      Bbox.ofPoints (qs ++ [p]) = (Bbox.ofPoints qs).union (.ofPoint p) := by
    intro qs p; simp [Bbox.ofPoints]
  have pick1 : ∀ a b : Dbl, Dbl.cmin a b = a ∨ Dbl.cmin a b = b := by
    intro a b; unfold Dbl.cmin; split <;> simp
  have pick2 : ∀ a b : Dbl, Dbl.cmax a b = a ∨ Dbl.cmax a b = b := by
    intro a b; unfold Dbl.cmax; split <;> simp
  have e1 : ∀ a : Dbl, a ≠ .nan → a = Dbl.cmin .pinf a := by intro a; cases a <;> simp [Dbl.cmin, Dbl.lt]
  have e2 : ∀ a : Dbl, a ≠ .nan → a = Dbl.cmax .ninf a := by intro a; cases a <;> simp [Dbl.cmax, Dbl.lt]
  induction ps using List.reverseRecOn with
  | nil => exact absurd rfl hne
  | append_singleton qs p ih =>
    have hp := h p (by simp)
    by_cases hq : qs = []
    · subst hq
      have e : Bbox.ofPoints [p] = Bbox.empty.union (.ofPoint p) := rfl
      simp only [List.nil_append, e]
      exact ⟨⟨p, by simp, e1 _ hp.1⟩, ⟨p, by simp, e2 _ hp.1⟩, ⟨p, by simp, e1 _ hp.2.1⟩,
        ⟨p, by simp, e2 _ hp.2.1⟩, ⟨p, by simp, e1 _ hp.2.2⟩, ⟨p, by simp, e2 _ hp.2.2⟩⟩
    · have ih' := ih (fun q hq => h q (by simp [hq])) hq
      have lift : ∀ {f : V3 Dbl → Dbl} {v w : Dbl}, (∃ q ∈ qs, f q = v) → (w = v ∨ w = f p) →
          ∃ q ∈ qs ++ [p], f q = w := by
        rintro f v w ⟨q, hq, hv⟩ (rfl | rfl)
        · exact ⟨q, by simp [hq], hv⟩
        · exact ⟨p, by simp, rfl⟩
      rw [step]
      exact ⟨lift ih'.1 (pick1 _ _), lift ih'.2.1 (pick2 _ _), lift ih'.2.2.1 (pick1 _ _),
        lift ih'.2.2.2.1 (pick2 _ _), lift ih'.2.2.2.2.1 (pick1 _ _), lift ih'.2.2.2.2.2 (pick2 _ _)⟩

example : ∀ p ∈ [(⟨.fin 1, .fin 2, .fin 3⟩ : V3 Dbl), ⟨.fin 0, .pinf, .fin 5⟩], PtReal p := by
  simp [PtReal]

example : BoxReal ⟨.fin 0, .fin 1, .ninf, .pinf, .fin 2, .fin 2⟩ := by simp [BoxReal]

end City.Props
