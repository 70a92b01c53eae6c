import Verif.Lemmas.Shift
import Verif.Props.NodePrint
import Verif.Model.Float
/-! C104: the horizontal position of the reference point does not matter. -/
namespace City.Props
open City Spec
set_option linter.unusedSectionVars false

section
variable {K : Type} [Field K] [LinearOrder K] [IsStrictOrderedRing K] {C : Cgal K} {v : V2 K}

/-- C104: the footprint of a building whose coordinates are given relative to a reference point moved by `-v` is the footprint, moved by `v`, with the moved reference
point; the exceptions and the undefined behaviour are the same. -/
theorem C104_footprint (M : Moves C v) (name : Text) (r : V3 K) (epsg : Nat) (facets : List (Facet K)) :
    FootPrint.ofNode C name (Shift.ref v r) epsg (facets.map (Shift.facet v)) = Shift.foot v <$> FootPrint.ofNode C name r epsg facets := by
  unfold FootPrint.ofNode
  rw [orthoprint_shift M, show (Brick.empty : Brick K) = Shift.brick v Brick.empty from rfl, sumPrints_shift M, map_bind M, bind_map M]
  rfl

/-- C104: the identifiers, the heights over the ground and the areas of the faces of the moved footprint are those of the footprint, and it covers the moved ground. -/
theorem C104_questions (M : Moves C v) (fp : FootPrint K) (p : V2 K) :
    (Shift.foot v fp).brick.contains C (Shift.pt v p) = fp.brick.contains C p ∧
    (Shift.foot v fp).brick.height C (Shift.pt v p) = fp.brick.height C p ∧
    (Shift.foot v fp).brick.faces.map FacePrint.id = fp.brick.faces.map FacePrint.id ∧
    (Shift.foot v fp).brick.faces.map (FacePrint.area C) = fp.brick.faces.map (FacePrint.area C) := by
  refine ⟨brick_contains_shift M _ _, brick_height_shift M _ _, ?_, ?_⟩
  · simp [Shift.foot, Shift.brick, Shift.face, Function.comp_def]
  · rw [show (Shift.foot v fp).brick.faces = fp.brick.faces.map (Shift.face v) from rfl, List.map_map]
    exact List.map_congr_left fun f _ => area_shift f

/-- C104: footprints relative to the same reference point are added in the same way whatever this point is; the sum is refused in the same cases. -/
theorem C104_sum (M : Moves C v) (a b : FootPrint K) : (Shift.foot v a).add C (Shift.foot v b) = Shift.foot v <$> a.add C b := by
  unfold FootPrint.add
  have h0 : (Shift.foot v a).brick.isEmpty = a.brick.isEmpty := by
    simp only [Brick.isEmpty, Shift.foot, Shift.brick, List.isEmpty_map]
  have h1 : ((Shift.foot v a).ref ≠ (Shift.foot v b).ref ∨ (Shift.foot v a).epsg ≠ (Shift.foot v b).epsg) ↔ (a.ref ≠ b.ref ∨ a.epsg ≠ b.epsg) := by
    have : Shift.ref v a.ref = Shift.ref v b.ref ↔ a.ref = b.ref := by
      constructor
      · intro h
        have hx : a.ref.x - v.x = b.ref.x - v.x := congrArg V3.x h
        have hy : a.ref.y - v.y = b.ref.y - v.y := congrArg V3.y h
        have hz : a.ref.z = b.ref.z := by
          have := congrArg V3.z h
          exact this
        exact V3.ext (by linarith) (by linarith) hz
      · intro h; rw [h]
    simp only [Shift.foot, ne_eq, this]
  rw [h0]
  by_cases e0 : a.brick.isEmpty = true
  · rw [if_pos e0, if_pos e0]; rfl
  · rw [if_neg e0, if_neg e0]
    by_cases e1 : a.ref ≠ b.ref ∨ a.epsg ≠ b.epsg
    · rw [if_pos e1, if_pos (h1.2 e1)]; rfl
    · rw [if_neg e1, if_neg (mt h1.1 e1), show (Shift.foot v a).brick = Shift.brick v a.brick from rfl,
        show (Shift.foot v b).brick = Shift.brick v b.brick from rfl, addBrick_shift M, map_bind M, bind_map M]
      rfl

/-- C104: with exact conversions, the points that are exported to a vector file are the same, in world coordinates. -/
theorem C104_rings_partial (hd : ∀ x, C.toDouble x = x) (fp : FootPrint K) :
    (Shift.foot v fp).brick.faces.map (fun f => (f.toOgr C (Shift.foot v fp).ref).rings) = fp.brick.faces.map (fun f => (f.toOgr C fp.ref).rings) := by
  have ring_eq : ∀ q : Poly K, ringToOgr C (Shift.ref v fp.ref) (Shift.poly v q) = ringToOgr C fp.ref q := by
    intro q
    unfold ringToOgr Shift.poly
    rw [List.map_map]
    congr 2
    funext u
    simp only [hd, Function.comp, Shift.pt, Shift.ref]
    congr 1 <;> ring
  rw [show (Shift.foot v fp).brick.faces = fp.brick.faces.map (Shift.face v) from rfl, List.map_map]
  refine List.map_congr_left fun f _ => ?_
  simp only [Function.comp, FacePrint.toOgr, pwhToOgr, Shift.foot, Shift.face, Shift.pwh, ring_eq, List.map_map]
  congr 1
  exact List.map_congr_left fun q _ => ring_eq q

variable [FloorRing K]

/-- C104: with exact conversions the elevation map of the moved footprint is the same: size, pixels, hit counts, world coordinates; and so are exceptions and undefined
behaviour. -/
theorem C104_raster_partial (M : Moves C v) (hd : ∀ x, C.toDouble x = x) (lr : Bool) (fp : FootPrint K) (p : K) :
    Raster.ofFootPrint C lr (Shift.foot v fp) p = Raster.ofFootPrint C lr fp p := ofFootPrint_shift M hd lr fp p

/-- C104: the elevation map of a building depends on the horizontal world coordinates of its facets only. -/
theorem C104_map_partial (M : Moves C v) (hd : ∀ x, C.toDouble x = x) (lr : Bool) (name : Text) (r : V3 K) (epsg : Nat) (facets : List (Facet K)) (p : K) :
    (FootPrint.ofNode C name (Shift.ref v r) epsg (facets.map (Shift.facet v)) >>= fun fp => Raster.ofFootPrint C lr fp p) =
      (FootPrint.ofNode C name r epsg facets >>= fun fp => Raster.ofFootPrint C lr fp p) := by
  rw [C104_footprint M, map_bind M]
  congr 1
  funext fp
  exact C104_raster_partial M hd lr fp p

end

/-! The assumption on CGAL is met by the library of rectangles, for all the vectors. -/

theorem rects_move (v : V2 ℚ) (b : Box2 ℚ) : rects (Shift.box v b) = (rects b).map (Shift.pwh v) := by
  have : Fat (Shift.box v b) ↔ Fat b := by simp [Fat, Shift.box]
  unfold rects
  by_cases h : Fat b
  · rw [if_pos h, if_pos (this.2 h)]; rfl
  · rw [if_neg h, if_neg (mt this.1 h)]; rfl

theorem boxMeet_move (v : V2 ℚ) (a b : Box2 ℚ) : boxMeet (Shift.box v a) (Shift.box v b) = Shift.box v (boxMeet a b) := by
  simp only [boxMeet, Shift.box, max_add_add_right, min_add_add_right]

theorem boxOf_move (v : V2 ℚ) (q : Pwh ℚ) (h : q.outer ≠ []) : boxOf (Shift.pwh v q) = Shift.box v (boxOf q) := by
  unfold boxOf
  rw [show (Shift.pwh v q).outer = Shift.poly v q.outer from rfl, Shift.polyBox_poly]
  cases hb : polyBox q.outer with
  | some b => rfl
  | none =>
    exfalso
    rcases ho : q.outer with _ | ⟨a, t⟩
    · exact h ho
    · rw [ho] at hb
      have : ∀ (t : Poly ℚ) (c : Box2 ℚ), t.foldl (fun b u => Box2.union b (some (Box2.point u))) (some c) ≠ none := by
        intro t
        induction t with
        | nil => intro c; simp
        | cons d t ih => intro c; exact ih _
      exact this t _ hb

theorem flat_left (a : Box2 ℚ) : ¬ Fat (boxMeet ⟨0, 0, 0, 0⟩ a) ∧ ¬ Fat (boxMeet a ⟨0, 0, 0, 0⟩) := by
  simp only [Fat, boxMeet, max_lt_iff, lt_min_iff]
  constructor
  · intro h; linarith [h.1.1.1]
  · intro h; linarith [h.1.2.2]

theorem boxOf_none (q : Pwh ℚ) (h : q.outer = []) (v : V2 ℚ) : boxOf q = ⟨0, 0, 0, 0⟩ ∧ boxOf (Shift.pwh v q) = ⟨0, 0, 0, 0⟩ := by
  unfold boxOf Shift.pwh Shift.poly
  rw [h]
  exact ⟨rfl, rfl⟩

theorem rectInter_move (v : V2 ℚ) (q r : Pwh ℚ) : rectInter (Shift.pwh v q) (Shift.pwh v r) = (rectInter q r).map (Shift.pwh v) := by
  unfold rectInter
  by_cases hq : q.outer = []
  · obtain ⟨h1, h2⟩ := boxOf_none q hq v
    rw [h1, h2]
    simp [rects, (flat_left _).1]
  by_cases hr : r.outer = []
  · obtain ⟨h1, h2⟩ := boxOf_none r hr v
    rw [h1, h2]
    simp [rects, (flat_left _).2]
  rw [boxOf_move v q hq, boxOf_move v r hr, boxMeet_move, rects_move]

theorem rectMinus_move (v : V2 ℚ) (q r : Pwh ℚ) : rectMinus (Shift.pwh v q) (Shift.pwh v r) = (rectMinus q r).map (Shift.pwh v) := by
  unfold rectMinus
  by_cases hq : q.outer = []
  · obtain ⟨h1, h2⟩ := boxOf_none q hq v
    rw [h1, h2, if_neg (flat_left _).1, if_neg (flat_left _).1]
    rfl
  by_cases hr : r.outer = []
  · obtain ⟨h1, h2⟩ := boxOf_none r hr v
    rw [h1, h2, if_neg (flat_left _).2, if_neg (flat_left _).2]
    rfl
  rw [boxOf_move v q hq, boxOf_move v r hr, boxMeet_move]
  have : Fat (Shift.box v (boxMeet (boxOf q) (boxOf r))) ↔ Fat (boxMeet (boxOf q) (boxOf r)) := by simp [Fat, Shift.box]
  by_cases h : Fat (boxMeet (boxOf q) (boxOf r))
  · rw [if_pos h, if_pos (this.2 h)]
    simp only [List.map_append, ← rects_move]
    rfl
  · rw [if_neg h, if_neg (mt this.1 h)]
    rfl

theorem rectSide_move (v : V2 ℚ) (q : Poly ℚ) (p : V2 ℚ) : rectSide (Shift.poly v q) (Shift.pt v p) = rectSide q p := by
  unfold rectSide
  rw [Shift.polyBox_poly]
  cases polyBox q with
  | none => rfl
  | some b =>
    have h1 : InRect (Shift.box v b) (Shift.pt v p) ↔ InRect b p := by simp [InRect, Shift.box, Shift.pt]
    have h2 : ((Shift.box v b).xmin ≤ (Shift.pt v p).x ∧ (Shift.pt v p).x ≤ (Shift.box v b).xmax ∧ (Shift.box v b).ymin ≤ (Shift.pt v p).y ∧
        (Shift.pt v p).y ≤ (Shift.box v b).ymax) ↔ (b.xmin ≤ p.x ∧ p.x ≤ b.xmax ∧ b.ymin ≤ p.y ∧ p.y ≤ b.ymax) := by simp [Shift.box, Shift.pt]
    simp only [Option.map_some, h1, h2]

theorem foldl_move (v : V2 ℚ) (s : List (Pwh ℚ)) : ∀ t : List (Pwh ℚ),
    (s.map (Shift.pwh v)).foldl (fun t r => t.flatMap fun x => rectMinus x r) (t.map (Shift.pwh v)) =
      (s.foldl (fun t r => t.flatMap fun x => rectMinus x r) t).map (Shift.pwh v) := by
  induction s with
  | nil => intro t; rfl
  | cons r s ih =>
    intro t
    simp only [List.map_cons, List.foldl_cons]
    rw [← ih]
    congr 1
    rw [List.flatMap_map, List.map_flatMap]
    simp only [rectMinus_move]

theorem minus_move (v : V2 ℚ) (s : List (Pwh ℚ)) (q : Pwh ℚ) :
    (s.map (Shift.pwh v)).flatMap (fun r => rectMinus r (Shift.pwh v q)) = (s.flatMap fun r => rectMinus r q).map (Shift.pwh v) := by
  rw [List.flatMap_map, List.map_flatMap]
  simp only [rectMinus_move]

theorem join_move (v : V2 ℚ) (s : List (Pwh ℚ)) (q : Pwh ℚ) :
    (s.map (Shift.pwh v)).flatMap (fun r => rectMinus r (Shift.pwh v q)) ++ [Shift.pwh v q] = (s.flatMap (fun r => rectMinus r q) ++ [q]).map (Shift.pwh v) := by
  rw [minus_move, List.map_append]
  rfl

theorem meet_move (v : V2 ℚ) (s : List (Pwh ℚ)) (q : Pwh ℚ) :
    (if ((s.map (Shift.pwh v)).foldl (fun t r => t.flatMap fun x => rectMinus x r) [Shift.pwh v q]).isEmpty then [Shift.pwh v q]
      else (s.map (Shift.pwh v)).flatMap fun r => rectInter r (Shift.pwh v q)) =
    (if (s.foldl (fun t r => t.flatMap fun x => rectMinus x r) [q]).isEmpty then [q] else s.flatMap fun r => rectInter r q).map (Shift.pwh v) := by
  have h := foldl_move v s [q]
  rw [List.map_cons, List.map_nil] at h
  rw [h, List.isEmpty_map]
  split
  · rfl
  · rw [List.flatMap_map, List.map_flatMap]
    simp only [rectInter_move]

/-- The library of rectangles does not look at absolute positions. -/
def rect_moves (v : V2 ℚ) : Moves rectCgal v where
  set := fun s : List (Pwh ℚ) => s.map (Shift.pwh v)
  simple := fun _ => rfl
  side := rectSide_move v
  inter := rectInter_move v
  empty := rfl
  single := fun _ => rfl
  join := fun s q => join_move v s q
  meet := fun s q => meet_move v s q
  minus := fun s q => minus_move v s q
  isEmpty := fun _ => List.isEmpty_map
  pieces := fun _ => rfl

/-- The hypotheses of C104 are met, and the map of the shed is not trivial: coordinates relative to the point (100, 200) and world coordinates give the same map. -/
example : (FootPrint.ofNode rectCgal [] ⟨0, 0, 50⟩ 2154 (shedFacets.map (Shift.facet ⟨100, 200⟩)) >>= fun fp => Raster.ofFootPrint rectCgal true fp 2) =
    .ok ⟨[], ⟨100, 202, 50⟩, 2154, 1, 2, 2, [55, 0], [2, 0], true⟩ := by
  have h := C104_map_partial (rect_moves ⟨100, 200⟩) (fun _ => rfl) true [] ⟨100, 200, 50⟩ 2154 shedFacets 2
  rw [shed_image] at h
  rw [← h]
  norm_num [Shift.ref]

/-- C104 in full: without the condition that conversions to doubles are exact. -/
def C104_full : Prop := ∀ (C : Cgal ℚ) (v : V2 ℚ), Moves C v → ∀ (lr : Bool) (name : Text) (r : V3 ℚ) (epsg : Nat) (facets : List (Facet ℚ)) (p : ℚ),
  (FootPrint.ofNode C name (Shift.ref v r) epsg (facets.map (Shift.facet v)) >>= fun fp => Raster.ofFootPrint C lr fp p) =
    (FootPrint.ofNode C name r epsg facets >>= fun fp => Raster.ofFootPrint C lr fp p)

/-- The library of rectangles, with conversions to doubles that round to the nearest. -/
def roundCgal : Cgal ℚ := { rectCgal with toDouble := fun x => fl x }

/-- Rounding is no part of what CGAL does with positions. -/
def round_moves (v : V2 ℚ) : Moves roundCgal v where
  set := (rect_moves v).set
  simple := (rect_moves v).simple
  side := (rect_moves v).side
  inter := (rect_moves v).inter
  empty := (rect_moves v).empty
  single := (rect_moves v).single
  join := (rect_moves v).join
  meet := (rect_moves v).meet
  minus := (rect_moves v).minus
  isEmpty := (rect_moves v).isEmpty
  pieces := (rect_moves v).pieces

/-- C104 refuted: a square roof that rises from 0 m to 1 m is mapped to 1/2 m; relative to a reference point 2^53 m away, where doubles have no fractions and not all the integers, to 0 m. -/
theorem C104_refuted : ¬ C104_full := by
  intro h
  have h1 := h roundCgal ⟨2 ^ 53, 0⟩ (round_moves _) true [] ⟨0, 0, 0⟩ 2154 [⟨1, [⟨0, 0, 0⟩, ⟨1, 0, 1⟩, ⟨1, 1, 1⟩, ⟨0, 1, 0⟩]⟩] 1
  revert h1
  decide +kernel

end City.Props
