import Verif.Props.BrickPrint
import Mathlib.Data.List.Cycle
/-!
C96: the questions a brick print answers: `contains` (a point, a face), `overlaps`, `get_height`, `is_under`. brick_projection.cpp:106-196.
-/
set_option linter.unusedSectionVars false
namespace City.Props
open City City.Spec Brick
variable {K : Type} [Field K] [LinearOrder K] [IsStrictOrderedRing K]
variable {C : Cgal K} {Ok : Pwh K → Prop} {Good : C.PSet → Prop} {Gen : V2 K → Prop}

/-- C96: a brick print contains a point exactly when the point is in the closed region of one of its faces, whatever CGAL does. -/
theorem C96_point (C : Cgal K) (b : Brick K) (p : V2 K) : b.contains C p = true ↔ ∃ f ∈ b.faces, InRegion C f.border p := by
  unfold Brick.contains
  rw [List.any_eq_true]
  exact ⟨fun ⟨f, hf, h⟩ => ⟨f, hf, (contains_iff C f p).1 h⟩, fun ⟨f, hf, h⟩ => ⟨f, hf, (contains_iff C f p).2 h⟩⟩

/-- C96: it overlaps a polygon exactly when they share ground. -/
theorem C96_overlaps (L : Lawful C Ok Good Gen) (b : Brick K) (hb : ∀ f ∈ b.faces, ValidFace Ok f) (q : Pwh K) (hq : Ok q) :
    b.overlaps C q = true ↔ ∃ p, Gen p ∧ Ground C b.faces p ∧ Interior C q p := overlaps_iff L hb hq

example : ∃ p, RectGen p ∧ Ground rectCgal [bar, other] p ∧ Interior rectCgal long.border p := by
  have hb : ∀ f ∈ (⟨none, [bar, other]⟩ : Brick ℚ).faces, ValidFace RectOk f := by
    intro f hf
    rcases List.mem_pair.1 hf with rfl | rfl
    · exact bar_valid
    · exact other_valid
  exact (C96_overlaps rect_lawful ⟨none, [bar, other]⟩ hb long.border long_valid.1).1 (by decide +kernel)

/-- C96: when it says that it contains a face, all the ground of the face is covered. -/
theorem C96_contains_face (L : Lawful C Ok Good Gen) (b : Brick K) (hb : ∀ f ∈ b.faces, ValidFace Ok f) (f : FacePrint K) (hf : Ok f.border)
    (h : b.containsFace C f = true) (p : V2 K) (hp : Gen p) (hi : Interior C f.border p) : Ground C b.faces p :=
  containsFace_ground L hb hf h hp hi

example : (⟨none, [sideA 5, sideB 5]⟩ : Brick ℚ).containsFace rectCgal (inside 8) = true := by decide +kernel
example : (⟨none, [sideA 5]⟩ : Brick ℚ).containsFace rectCgal (inside 8) = false := by decide +kernel

/-- The cycle of the vertices of a polygon: without a first one. -/
def ringOf (h : Poly K) : Cycle (V2 K) := h

theorem holesEq_iff (hs t : List (Poly K)) : holesEq hs t = true ↔
    (hs.map ringOf).Perm (t.map ringOf) := by
  induction hs generalizing t with
  | nil =>
    unfold holesEq
    rw [List.isEmpty_iff, List.map_nil, List.nil_perm, List.map_eq_nil_iff]
  | cons h hs ih =>
    unfold holesEq
    cases hf : t.find? (fun g => polyEq g h) with
    | none =>
      simp only [Bool.false_eq_true, false_iff]
      intro hp
      have hm : ringOf h ∈ t.map ringOf := hp.subset (by simp)
      obtain ⟨g, hg, he⟩ := List.mem_map.1 hm
      have := List.find?_eq_none.1 hf g hg
      unfold polyEq at this
      rw [decide_eq_true_eq] at this
      exact this (Cycle.coe_eq_coe.1 he)
    | some g =>
      simp only
      have hg : polyEq g h = true := by simpa using List.find?_some hf
      unfold polyEq at hg
      rw [decide_eq_true_eq] at hg
      have hgm := List.mem_of_find?_eq_some hf
      have hperm : (t.map ringOf).Perm (ringOf h :: (t.erase g).map ringOf) := by
        have := (List.perm_cons_erase hgm).map ringOf
        rwa [List.map_cons, show ringOf g = ringOf h from Cycle.coe_eq_coe.2 hg] at this
      rw [ih, List.map_cons]
      exact ⟨fun h => (h.cons _).trans hperm.symm, fun h => (h.trans hperm).cons_inv⟩

/-- C96: for this question two polygons are the same when they have the same cycle of outer vertices and, up to their order, the same cycles
of vertices of their holes: a vertex in the middle of an edge makes them differ. -/
theorem C96_same_polygon (q r : Pwh K) : pwhEq q r = true ↔ ringOf q.outer = ringOf r.outer ∧
    (q.holes.map ringOf).Perm (r.holes.map ringOf) := by
  unfold pwhEq polyEq
  rw [Bool.and_eq_true, Bool.and_eq_true, beq_iff_eq, decide_eq_true_eq, holesEq_iff, ringOf, ringOf, Cycle.coe_eq_coe]
  refine ⟨fun h => ⟨h.1.2, h.2⟩, fun h => ⟨⟨?_, h.1⟩, h.2⟩⟩
  simpa using h.2.length_eq

/-- C96: in a brick print whose faces do not overlap the height above a generic point is that of the face there, or zero. -/
theorem C96_height (L : Lawful C Ok Good Gen) (b : Brick K) (hb : ∀ f ∈ b.faces, ValidFace Ok f) (hno : NoOverlap C Gen b.faces)
    (p : V2 K) (hp : Gen p) : (∀ f ∈ b.faces, Interior C f.border p → b.height C p = .ok (zAt f p)) ∧
      ((∀ f ∈ b.faces, ¬ Interior C f.border p) → b.height C p = .ok 0) :=
  ⟨fun _ hf hi => brick_height_face L hb hno hp hf hi, fun h => brick_height_out L hb hp fun ⟨f, hf, hi⟩ => h f hf hi⟩

/-- C96: the answer of `is_under` is always defined for a valid face; when it is yes, the ground of the face is covered and at its sample
point, the centroid of its first three vertices, it is not above the print. -/
theorem C96_under (L : Lawful C Ok Good Gen) (b : Brick K) (hb : ∀ f ∈ b.faces, ValidFace Ok f) (l : FacePrint K) (hl : ValidFace Ok l) :
    ∃ u, b.isUnder C l = .ok u ∧ (u = true → (∀ p, Gen p → Interior C l.border p → Ground C b.faces p) ∧
      ∃ m z w, sample l.border = .ok m ∧ l.height C m = .ok z ∧ b.height C m = .ok w ∧ z ≤ w) := by
  obtain ⟨m, hm, h, _⟩ := isUnder_ok L hb hl
  rcases h with h | ⟨h, hc, z, w, h1, h2, h3⟩
  · exact ⟨false, h, by simp⟩
  · exact ⟨true, h, fun _ => ⟨fun p hp hi => containsFace_ground L hb hl.1 hc hp hi, m, z, w, hm, h1, h2, h3⟩⟩

/-- C96 as stated, for `is_under`: yes means that the face is nowhere above the print. False: `C96_refuted`. -/
def C96_full : Prop := ∀ (C : Cgal ℚ) (Ok : Pwh ℚ → Prop) (Good : C.PSet → Prop) (Gen : V2 ℚ → Prop), Lawful C Ok Good Gen →
  ∀ (b : Brick ℚ) (l : FacePrint ℚ), (∀ f ∈ b.faces, ValidFace Ok f) → NoOverlap C Gen b.faces → ValidFace Ok l → b.isUnder C l = .ok true →
    ∀ p, Gen p → Interior C l.border p → ∃ f ∈ b.faces, Interior C f.border p ∧ zAt l p ≤ zAt f p

theorem sides_fit (y z : ℚ) : ∀ f ∈ [sideA y, sideB z], ValidFace RectOk f := by
  intro f hf
  rcases List.mem_pair.1 hf with rfl | rfl
  · exact sideA_valid _
  · exact sideB_valid _

theorem sides_split (y z : ℚ) : NoOverlap rectCgal RectGen [sideA y, sideB z] := by
  unfold NoOverlap
  rw [List.pairwise_pair]
  rintro p _ ⟨h1, h2⟩
  have h1 := (slab_interior 1 (-1) (-1) 6 10 y (by norm_num) (by norm_num) p).1 h1
  have h2 := (slab_interior 2 6 (-1) 10 10 z (by norm_num) (by norm_num) p).1 h2
  linarith [h1.2.1, h2.1]

/-- C96 is false: only one point of the face is looked at. Here it is on the common edge of two faces, whose heights are added there. -/
theorem C96_refuted : ¬ C96_full := by
  intro h
  obtain ⟨f, hf, hi, hz⟩ := h rectCgal RectOk RectGood RectGen rect_lawful ⟨none, [sideA 5, sideB 5]⟩ (inside 8) (sides_fit 5 5) (sides_split 5 5)
    (inside_valid 8) (by decide +kernel) ⟨((1 : ℤ) : ℚ) + 1 / 2, ((1 : ℤ) : ℚ) + 1 / 2⟩ (half_gen 1 1)
    ((slab_interior 4 0 0 9 9 8 (by norm_num) (by norm_num) _).2 (by norm_num))
  rcases List.mem_pair.1 hf with rfl | rfl
  · revert hz
    decide +kernel
  · revert hz
    decide +kernel

/-- C96 is false even when the sample point is well inside one face: the print may be high there and low elsewhere. -/
theorem C96_refuted_elsewhere : (⟨none, [sideA 9, sideB 1]⟩ : Brick ℚ).isUnder rectCgal (slab 4 0 0 7 9 8) = .ok true ∧
    ∃ p, RectGen p ∧ Interior rectCgal (slab 4 0 0 7 9 8).border p ∧ ∀ f ∈ [sideA 9, sideB 1], Interior rectCgal f.border p → zAt f p < zAt (slab 4 0 0 7 9 8) p := by
  refine ⟨by decide +kernel, ⟨((6 : ℤ) : ℚ) + 1 / 2, ((1 : ℤ) : ℚ) + 1 / 2⟩, half_gen 6 1,
    (slab_interior 4 0 0 7 9 8 (by norm_num) (by norm_num) _).2 (by norm_num), ?_⟩
  intro f hf hi
  rcases List.mem_pair.1 hf with rfl | rfl
  · have := (slab_interior 1 (-1) (-1) 6 10 9 (by norm_num) (by norm_num) _).1 hi
    norm_num at this
  · decide +kernel

/-- C96, the part that holds: a face that is above the print at its sample point, inside the face and generic, is never said to be under it. -/
theorem C96_above_partial (L : Lawful C Ok Good Gen) (b : Brick K) (hb : ∀ f ∈ b.faces, ValidFace Ok f) (hno : NoOverlap C Gen b.faces)
    (l : FacePrint K) (hl : ValidFace Ok l) (m : V2 K) (hm : sample l.border = .ok m) (hg : Gen m) (hi : Interior C l.border m)
    (ha : ∀ f ∈ b.faces, Interior C f.border m → zAt f m < zAt l m) : b.isUnder C l = .ok false := by
  obtain ⟨m', hm', hcase, _⟩ := isUnder_ok L hb hl
  rw [hm] at hm'
  cases hm'
  rcases hcase with h | ⟨_, hc, z, w, hz, hw, hle⟩
  · exact h
  · obtain ⟨r, hr, hir⟩ := containsFace_ground L hb hl.1 hc hg hi
    rw [brick_height_face L hb hno hg hr hir] at hw
    rw [height_valid L hl, if_pos ((contains_gen L hl.1 hg).2 hi)] at hz
    cases hz
    cases hw
    exact absurd (ha r hr hir) (not_lt.2 hle)

example : (⟨none, [sideA 5, sideB 9]⟩ : Brick ℚ).isUnder rectCgal (slab 4 0 0 7 8 6) = .ok false := by
  refine C96_above_partial rect_lawful _ (sides_fit 5 9) (sides_split 5 9) _ ?_ ⟨14 / 3, 8 / 3⟩ (by decide +kernel) ?_ ?_ ?_
  · have := slab_valid 4 0 0 7 8 6 (by decide) (by decide)
    simpa using this
  · constructor
    · rintro ⟨n, hn⟩
      have : (14 : ℚ) = 3 * n := by simp only at hn; linarith
      have : (14 : ℤ) = 3 * n := by exact_mod_cast this
      omega
    · rintro ⟨n, hn⟩
      have : (8 : ℚ) = 3 * n := by simp only at hn; linarith
      have : (8 : ℤ) = 3 * n := by exact_mod_cast this
      omega
  · exact (slab_interior 4 0 0 7 8 6 (by norm_num) (by norm_num) _).2 (by norm_num)
  · intro f hf hi
    rcases List.mem_pair.1 hf with rfl | rfl
    · decide +kernel
    · have := (slab_interior 2 6 (-1) 10 10 9 (by norm_num) (by norm_num) _).1 hi
      norm_num at this

/-- C96, the part that holds: a face that is covered and not above the print at its sample point is said to be under it if CGAL gives back
its polygon. -/
theorem C96_below_partial (L : Lawful C Ok Good Gen) (b : Brick K) (hb : ∀ f ∈ b.faces, ValidFace Ok f) (hno : NoOverlap C Gen b.faces)
    (l : FacePrint K) (hl : ValidFace Ok l) (m : V2 K) (hm : sample l.border = .ok m) (hg : Gen m) (hi : Interior C l.border m)
    (hc : b.containsFace C l = true) (f : FacePrint K) (hf : f ∈ b.faces) (hfi : Interior C f.border m) (ha : zAt l m ≤ zAt f m) :
    b.isUnder C l = .ok true := by
  obtain ⟨m', hm', _, hcase⟩ := isUnder_ok L hb hl
  rw [hm] at hm'
  cases hm'
  refine (hcase hc (zAt l m) (zAt f m) ?_ (brick_height_face L hb hno hg hf hfi)).2 ha
  rw [height_valid L hl, if_pos ((contains_gen L hl.1 hg).2 hi)]

end City.Props
