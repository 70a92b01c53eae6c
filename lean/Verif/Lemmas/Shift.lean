import Verif.Spec.Shift
import Mathlib.Tactic.Ring
import Mathlib.Tactic.FieldSimp
import Mathlib.Tactic.Linarith
import Mathlib.Algebra.Order.Group.MinMax
/-!
The operations on prints in coordinates relative to another origin.
-/
namespace City.Spec
open City
set_option linter.unusedSectionVars false

variable {K : Type} [Field K] [LinearOrder K] [IsStrictOrderedRing K]

namespace Shift

theorem pt_inj (v : V2 K) : Function.Injective (pt v) := by
  intro a b h
  have h1 : a.x + v.x = b.x + v.x := congrArg V2.x h
  have h2 : a.y + v.y = b.y + v.y := congrArg V2.y h
  exact V2.ext (by linarith) (by linarith)

theorem poly_inj (v : V2 K) : Function.Injective (poly v) := List.map_injective_iff.2 (pt_inj v)

theorem triArea_pt (v p q r : V2 K) : triArea (pt v p) (pt v q) (pt v r) = triArea p q r := by
  simp only [triArea, pt]; ring

theorem fanArea_poly (v p : V2 K) (q : Poly K) : fanArea (pt v p) (poly v q) = fanArea p q := by
  unfold poly
  induction q with
  | nil => rfl
  | cons a t ih =>
    cases t with
    | nil => rfl
    | cons b t =>
      simp only [List.map_cons, fanArea] at ih ⊢
      rw [ih, triArea_pt]

theorem polyArea_poly (v : V2 K) (q : Poly K) : polyArea (poly v q) = polyArea q := by
  cases q with
  | nil => rfl
  | cons a t => exact fanArea_poly v a t

theorem reverse_poly (v : V2 K) (q : Poly K) : reverseOrientation (poly v q) = poly v (reverseOrientation q) := by
  cases q <;> simp [reverseOrientation, poly]

theorem polyEq_poly (v : V2 K) (p q : Poly K) : polyEq (poly v p) (poly v q) = polyEq p q := by
  unfold polyEq
  congr 1
  apply propext
  constructor
  · rintro ⟨n, h⟩
    refine ⟨n, ?_⟩
    unfold poly at h
    rw [← List.map_rotate] at h
    exact poly_inj v h
  · intro h; exact h.map _

theorem holesEq_shift (v : V2 K) (hs : List (Poly K)) : ∀ t, holesEq (hs.map (poly v)) (t.map (poly v)) = holesEq hs t := by
  induction hs with
  | nil => intro t; cases t <;> rfl
  | cons h hs ih =>
    intro t
    simp only [List.map_cons, holesEq]
    rw [List.find?_map, show ((fun g => polyEq g (poly v h)) ∘ poly v) = fun g => polyEq g h from funext fun g => polyEq_poly v g h]
    cases List.find? (fun g => polyEq g h) t with
    | none => rfl
    | some g =>
      simp only [Option.map_some]
      rw [← List.map_erase (poly_inj v), ih]

theorem pwhEq_shift (v : V2 K) (p q : Pwh K) : pwhEq (pwh v p) (pwh v q) = pwhEq p q := by
  simp only [pwhEq, pwh, List.length_map, polyEq_poly, holesEq_shift]

theorem planeThrough_pt (v : V2 K) (p q r : V3 K) : planeThrough (pt3 v p) (pt3 v q) (pt3 v r) = plane v (planeThrough p q r) := by
  simp only [planeThrough, plane, pt3, Plane.mk.injEq]
  refine ⟨?_, ?_, ?_, ?_⟩ <;> ring

theorem trace_facet (v : V2 K) (f : Facet K) : trace (facet v f) = (poly v (trace f).1, plane v (trace f).2) := by
  unfold trace facet
  refine Prod.ext ?_ ?_
  · simp [poly, pt, pt3]
  · rcases f with ⟨i, ps⟩
    rcases ps with _ | ⟨a, _ | ⟨b, _ | ⟨c, t⟩⟩⟩
    · simp [plane]
    · simp [plane]
    · simp [plane]
    · exact planeThrough_pt v a b c

theorem box_union (v : V2 K) (a b : Option (Box2 K)) : Box2.union (a.map (box v)) (b.map (box v)) = (Box2.union a b).map (box v) := by
  cases a with
  | none => rfl
  | some a =>
    cases b with
    | none => rfl
    | some b => simp [Box2.union, box, min_add_add_right, max_add_add_right]

theorem polyBox_from (v : V2 K) (q : Poly K) : ∀ b : Option (Box2 K),
    (poly v q).foldl (fun b p => Box2.union b (some (Box2.point p))) (b.map (box v)) = (q.foldl (fun b p => Box2.union b (some (Box2.point p))) b).map (box v) := by
  induction q with
  | nil => intro b; rfl
  | cons a t ih =>
    intro b
    simp only [poly, List.map_cons, List.foldl_cons]
    rw [show some (Box2.point (pt v a)) = (some (Box2.point a)).map (box v) from rfl, box_union]
    exact ih _

theorem polyBox_poly (v : V2 K) (q : Poly K) : polyBox (poly v q) = (polyBox q).map (box v) := polyBox_from v q none

end Shift

section
open Shift
variable {C : Cgal K} {v : V2 K} (M : Moves C v)
include M

theorem ofFacet_shift (f : Facet K) : FacePrint.ofFacet C (facet v f) = face v (FacePrint.ofFacet C f) := by
  unfold FacePrint.ofFacet
  simp only [trace_facet, M.simple, polyArea_poly, face, pwh, reverse_poly]
  split <;> rfl

theorem contains_shift (f : FacePrint K) (p : V2 K) : FacePrint.contains C (face v f) (pt v p) = FacePrint.contains C f p := by
  simp only [FacePrint.contains, face, pwh, M.side, List.all_map]
  congr 2
  funext h
  simp only [Function.comp, M.side]

omit M

theorem area_shift (f : FacePrint K) : FacePrint.area C (face v f) = FacePrint.area C f := by
  simp only [FacePrint.area, face, pwh, polyArea_poly, List.foldl_map]

theorem perpendicular_shift (f : FacePrint K) : FacePrint.isPerpendicular (face v f) = FacePrint.isPerpendicular f := rfl

theorem degenerate_shift (f : FacePrint K) : FacePrint.isDegenerate C (face v f) = FacePrint.isDegenerate C f := by
  simp only [FacePrint.isDegenerate, perpendicular_shift, area_shift]
  simp [face, pwh]

theorem isEmpty_shift (f : FacePrint K) : FacePrint.isEmpty (face v f) = FacePrint.isEmpty f := by
  simp [FacePrint.isEmpty, face, pwh, poly]

theorem keep_shift (f : FacePrint K) : Brick.keep C (face v f) = Brick.keep C f := by
  simp only [Brick.keep, isEmpty_shift, degenerate_shift]

theorem planeHeight_shift (f : FacePrint K) (p : V2 K) : FacePrint.planeHeight C (face v f) (pt v p) = FacePrint.planeHeight C f p := by
  simp only [FacePrint.planeHeight, face, plane, pt]
  congr 4
  ring

theorem bbox_shift (f : FacePrint K) : FacePrint.bbox (face v f) = (FacePrint.bbox f).map (box v) := polyBox_poly v _

include M

theorem height_shift (f : FacePrint K) (p : V2 K) : FacePrint.height C (face v f) (pt v p) = FacePrint.height C f p := by
  simp only [FacePrint.height, planeHeight_shift, degenerate_shift, contains_shift M]

theorem orthoprint_shift (fs : List (Facet K)) : orthoprint C (fs.map (facet v)) = (orthoprint C fs).map (face v) := by
  unfold orthoprint
  rw [List.map_map, show FacePrint.ofFacet C ∘ facet v = face v ∘ FacePrint.ofFacet C from funext fun f => ofFacet_shift M f, ← List.map_map, List.filter_map]
  congr 2
  funext f
  simp only [Function.comp, isEmpty_shift, degenerate_shift]

theorem joinAll_shift (fs : List (FacePrint K)) : Brick.joinAll C (fs.map (face v)) = M.set (Brick.joinAll C fs) := by
  unfold Brick.joinAll
  have : ∀ s, (fs.map (face v)).foldl (fun s f => C.join s f.border) (M.set s) = M.set (fs.foldl (fun s f => C.join s f.border) s) := by
    induction fs with
    | nil => intro s; rfl
    | cons f fs ih =>
      intro s
      simp only [List.map_cons, List.foldl_cons]
      rw [show (face v f).border = pwh v f.border from rfl, M.join]
      exact ih _
  rw [← M.empty]
  rw [this]
  rw [M.empty]

theorem brick_contains_shift (b : Brick K) (p : V2 K) : Brick.contains C (brick v b) (pt v p) = Brick.contains C b p := by
  simp only [Brick.contains, brick, List.any_map]
  congr 1
  funext f
  exact contains_shift M f p

theorem containsFace_shift (b : Brick K) (f : FacePrint K) : Brick.containsFace C (brick v b) (face v f) = Brick.containsFace C b f := by
  unfold Brick.containsFace
  rw [show (brick v b).faces = b.faces.map (face v) from rfl, joinAll_shift M, show (face v f).border = pwh v f.border from rfl, M.meet, M.pieces]
  rcases C.pieces (C.meet (Brick.joinAll C b.faces) f.border) with _ | ⟨q, _ | ⟨r, t⟩⟩
  · rfl
  · exact pwhEq_shift v q f.border
  · rfl

theorem overlaps_shift (b : Brick K) (q : Pwh K) : Brick.overlaps C (brick v b) (pwh v q) = Brick.overlaps C b q := by
  unfold Brick.overlaps
  rw [show (brick v b).faces = b.faces.map (face v) from rfl, joinAll_shift M, M.meet, M.isEmpty]

theorem sumHeights_shift (p : V2 K) (fs : List (FacePrint K)) : ∀ z, Brick.sumHeights C (pt v p) (fs.map (face v)) z = Brick.sumHeights C p fs z := by
  induction fs with
  | nil => intro z; rfl
  | cons f fs ih =>
    intro z
    simp only [List.map_cons, Brick.sumHeights, height_shift M]
    congr 1
    funext h
    exact ih _

theorem brick_height_shift (b : Brick K) (p : V2 K) : Brick.height C (brick v b) (pt v p) = Brick.height C b p := by
  unfold Brick.height
  rw [brick_contains_shift M, show (brick v b).faces = b.faces.map (face v) from rfl, sumHeights_shift M]

omit M
theorem sample_shift (q : Pwh K) : sample (pwh v q) = pt v <$> sample q := by
  rcases q with ⟨o, hs⟩
  rcases o with _ | ⟨a, _ | ⟨b, _ | ⟨c, t⟩⟩⟩
  · rfl
  · rfl
  · rfl
  · simp only [sample, pwh, poly, List.map_cons, Out.map_ok, pt]
    congr 2 <;> · field_simp; ring
include M

theorem map_bind {α β γ : Type} (x : Out α) (f : α → β) (g : β → Out γ) : ((f <$> x) >>= g) = (x >>= fun a => g (f a)) := by
  cases x <;> rfl

theorem bind_map {α β γ : Type} (x : Out α) (f : α → Out β) (g : β → γ) : (g <$> (x >>= f)) = (x >>= fun a => g <$> f a) := by
  cases x <;> rfl

theorem isUnder_shift (b : Brick K) (f : FacePrint K) : Brick.isUnder C (brick v b) (face v f) = Brick.isUnder C b f := by
  unfold Brick.isUnder
  rw [perpendicular_shift, degenerate_shift, containsFace_shift M, show (face v f).border = pwh v f.border from rfl, sample_shift, map_bind M]
  simp only [height_shift M, brick_height_shift M]

theorem carve_shift (l r : FacePrint K) (qs : List (Pwh K)) : ∀ sl sr, Brick.carve C (face v l) (face v r) (qs.map (pwh v)) (M.set sl) (M.set sr) =
    (fun t => (M.set t.1, M.set t.2)) <$> Brick.carve C l r qs sl sr := by
  induction qs with
  | nil => intro sl sr; rfl
  | cons q qs ih =>
    intro sl sr
    simp only [List.map_cons, Brick.carve]
    rw [sample_shift, map_bind M, bind_map M]
    congr 1
    funext p
    rw [planeHeight_shift, planeHeight_shift, bind_map M]
    congr 1
    funext zl
    rw [bind_map M]
    congr 1
    funext zr
    split
    · rw [M.minus]; exact ih _ _
    · rw [M.minus]; exact ih _ _

theorem unpack_shift (s : C.PSet) (i : Nat) (pl : Plane K) : unpack C [] (M.set s) i (plane v pl) = (unpack C [] s i pl).map (face v) := by
  simp only [unpack, List.nil_append, M.pieces, List.map_map]
  rfl

theorem occludeOne_shift (l r : FacePrint K) : Brick.occludeOne C (face v l) (face v r) =
    (fun t => (t.1.map (face v), t.2.map (face v))) <$> Brick.occludeOne C l r := by
  unfold Brick.occludeOne
  rw [show (face v l).border = pwh v l.border from rfl, show (face v r).border = pwh v r.border from rfl, M.inter, List.isEmpty_map]
  split
  · rfl
  · rw [M.single, M.single, carve_shift M, map_bind M, bind_map M]
    congr 1
    funext t
    rw [Out.map_ok, show (face v l).plane = plane v l.plane from rfl, show (face v r).plane = plane v r.plane from rfl, unpack_shift M, unpack_shift M]
    rfl

theorem mapM_shift {α β : Type} (f : α → Out β) (f' : α → Out β) (g : α → α) (h : β → β) (hf : ∀ a, f' (g a) = h <$> f a) (l : List α) :
    Out.mapM f' (l.map g) = List.map h <$> Out.mapM f l := by
  induction l with
  | nil => rfl
  | cons a l ih =>
    rw [List.map_cons, Out.mapM_cons, Out.mapM_cons, hf, ih, map_bind M, bind_map M]
    congr 1
    funext b
    rw [map_bind M, bind_map M]
    rfl

theorem occlusion_shift (fs : List (FacePrint K)) (l : FacePrint K) : Brick.occlusion C (fs.map (face v)) (face v l) =
    (fun t => (t.1.map (face v), t.2.map (face v))) <$> Brick.occlusion C fs l := by
  unfold Brick.occlusion
  rw [List.filter_map, show Brick.keep C ∘ face v = Brick.keep C from funext fun f => keep_shift f,
    mapM_shift M (Brick.occludeOne C l) _ (face v) _ (occludeOne_shift M l), map_bind M, bind_map M]
  congr 1
  funext t
  simp only [Out.map_ok, List.flatMap_map, List.map_flatMap]

theorem addLoop_shift (rs : List (FacePrint K)) : ∀ lf, Brick.addLoop C (lf.map (face v)) (rs.map (face v)) =
    (fun t => (t.1.map (face v), t.2.map (face v))) <$> Brick.addLoop C lf rs := by
  induction rs with
  | nil => intro lf; rfl
  | cons r rs ih =>
    intro lf
    simp only [List.map_cons, Brick.addLoop]
    rw [occlusion_shift M, map_bind M, bind_map M]
    congr 1
    funext t
    simp only
    rw [ih, map_bind M, bind_map M]
    congr 1
    funext u
    simp only [Out.map_ok, List.map_append]

theorem addFace_shift (b : Brick K) (l : FacePrint K) : Brick.addFace C (brick v b) (face v l) = brick v <$> Brick.addFace C b l := by
  have hb : ∀ (fs : List (FacePrint K)), (⟨Box2.union (brick v b).bbox (FacePrint.bbox (face v l)), fs.map (face v)⟩ : Brick K) =
      brick v ⟨Box2.union b.bbox (FacePrint.bbox l), fs⟩ := by
    intro fs
    rw [bbox_shift, show (brick v b).bbox = b.bbox.map (box v) from rfl, box_union]
    rfl
  unfold Brick.addFace
  rw [show (brick v b).faces = b.faces.map (face v) from rfl, List.isEmpty_map]
  by_cases h1 : b.faces.isEmpty = true
  · rw [if_pos h1, if_pos h1, Out.map_ok, ← hb]; rfl
  · rw [if_neg h1, if_neg h1, show (face v l).border = pwh v l.border from rfl, overlaps_shift M]
    by_cases h2 : (!Brick.overlaps C b l.border) = true
    · rw [if_pos h2, if_pos h2, Out.map_ok, ← hb]; simp
    · rw [if_neg h2, if_neg h2, isUnder_shift M, bind_map M]
      congr 1
      funext u
      cases u
      · simp only [Bool.false_eq_true, if_false]
        rw [show [face v l] = [l].map (face v) from rfl, addLoop_shift M, map_bind M, bind_map M]
        congr 1
        funext t
        rw [Out.map_ok, ← hb]; simp
      · simp only [if_true, Out.map_ok]
        rw [← hb]

theorem addFaces_shift (fs : List (FacePrint K)) : ∀ b, Brick.addFaces C (brick v b) (fs.map (face v)) = brick v <$> Brick.addFaces C b fs := by
  induction fs with
  | nil => intro b; rfl
  | cons f fs ih =>
    intro b
    simp only [List.map_cons, Brick.addFaces, isEmpty_shift, degenerate_shift]
    split
    · rw [addFace_shift M, map_bind M, bind_map M]
      congr 1
      funext b'
      exact ih _
    · exact ih _

omit M in
theorem filter_shift (b : Brick K) : Brick.filter C (brick v b) = brick v (Brick.filter C b) := by
  simp only [Brick.filter, brick, List.filter_map, show Brick.keep C ∘ face v = Brick.keep C from funext fun f => keep_shift f]

theorem addBrick_shift (b o : Brick K) : Brick.addBrick C (brick v b) (brick v o) = brick v <$> Brick.addBrick C b o := by
  unfold Brick.addBrick
  rw [filter_shift, show (brick v o).faces = o.faces.map (face v) from rfl, addFaces_shift M, map_bind M, bind_map M]
  congr 1
  funext b'
  rw [filter_shift]; rfl

theorem sumPrints_shift (fs : List (FacePrint K)) : ∀ b, FootPrint.sumPrints C (fs.map (face v)) (brick v b) = brick v <$> FootPrint.sumPrints C fs b := by
  induction fs with
  | nil => intro b; rfl
  | cons f fs ih =>
    intro b
    simp only [List.map_cons, FootPrint.sumPrints]
    have : Brick.ofFace (face v f) = brick v (Brick.ofFace f) := by
      simp only [Brick.ofFace, brick, bbox_shift]; rfl
    rw [this, addBrick_shift M, map_bind M, bind_map M]
    congr 1
    funext b'
    exact ih _

/-! Rasters. -/

omit M in
theorem unique_shift (l : List (V2 K)) : unique (l.map (pt v)) = (unique l).map (pt v) := by
  induction h : l.length generalizing l with
  | zero =>
    rw [List.length_eq_zero_iff.1 h]
    simp [unique]
  | succ n ih =>
    rcases l with _ | ⟨a, _ | ⟨b, t⟩⟩
    · simp [unique]
    · simp [unique]
    · simp only [List.map_cons]
      rw [unique, unique]
      by_cases hab : a = b
      · rw [if_pos (by rw [hab]), if_pos hab]
        exact ih (a :: t) (by simpa using h)
      · rw [if_neg (fun e => hab (pt_inj v e)), if_neg hab, List.map_cons]
        congr 1
        exact ih (b :: t) (by simpa using h)

omit M in
theorem sum_x_shift (l : List (V2 K)) : ((l.map (pt v)).map V2.x).sum = (l.map V2.x).sum + l.length * v.x := by
  induction l with
  | nil => simp
  | cons a t ih => simp only [List.map_cons, List.sum_cons, ih, List.length_cons, pt]; push_cast; ring

omit M in
theorem sum_y_shift (l : List (V2 K)) : ((l.map (pt v)).map V2.y).sum = (l.map V2.y).sum + l.length * v.y := by
  induction l with
  | nil => simp
  | cons a t ih => simp only [List.map_cons, List.sum_cons, ih, List.length_cons, pt]; push_cast; ring

omit M in
theorem centroid_shift (hd : ∀ x, C.toDouble x = x) (q : Pwh K) : centroid C (pwh v q) = pt v <$> centroid C q := by
  have h0 : ∀ r : Poly K, (r.map fun u => (⟨C.toDouble u.x, C.toDouble u.y⟩ : V2 K)) = r := by
    intro r
    rw [List.map_congr_left (g := id) (fun u _ => by rw [hd, hd]; rfl), List.map_id]
  unfold centroid
  rw [h0, h0, show (pwh v q).outer = q.outer.map (pt v) from rfl, unique_shift]
  cases hu : unique q.outer with
  | nil => rfl
  | cons a t =>
    have hn : ((a :: t).length : K) ≠ 0 := by
      rw [Nat.cast_ne_zero]; simp
    rw [List.map_cons]
    simp only [← List.map_cons, Out.map_ok]
    rw [sum_x_shift, sum_y_shift, List.length_map]
    simp only [pt]
    congr 2 <;> · rw [add_div, mul_div_cancel_left₀ _ hn]

omit M in
theorem planeHeightInexact_shift (hd : ∀ x, C.toDouble x = x) (f : FacePrint K) (p : V2 K) :
    FacePrint.planeHeightInexact C (face v f) (pt v p) = FacePrint.planeHeightInexact C f p := by
  unfold FacePrint.planeHeightInexact
  simp only [hd, face, plane, pt]
  congr 3
  ring

omit M in
theorem partHeights_shift (hd : ∀ x, C.toDouble x = x) (f : FacePrint K) (n : K) (qs : List (Pwh K)) : ∀ s,
    FacePrint.partHeights C (face v f) n (qs.map (pwh v)) s = FacePrint.partHeights C f n qs s := by
  induction qs with
  | nil => intro s; rfl
  | cons q qs ih =>
    intro s
    simp only [List.map_cons, FacePrint.partHeights, centroid_shift hd]
    cases centroid C q with
    | ok c => simp only [Out.map_ok, Out.ok_bind, planeHeightInexact_shift hd, ih]
    | thrown e => rfl
    | ub => rfl

omit M in
theorem square_shift (x y p : K) : square (x + v.x) (y + v.y) p = pwh v (square x y p) := by
  simp only [square, pwh, poly, List.map_cons, List.map_nil, pt]
  have h1 : y + v.y - p = y - p + v.y := by ring
  have h2 : x + v.x + p = x + p + v.x := by ring
  rw [h1, h2]

theorem pixelHeight_shift (hd : ∀ x, C.toDouble x = x) (f : FacePrint K) (x y p : K) :
    FacePrint.pixelHeight C (face v f) (x + v.x) (y + v.y) p = FacePrint.pixelHeight C f x y p := by
  unfold FacePrint.pixelHeight
  rw [square_shift, show (face v f).border = pwh v f.border from rfl, M.inter, List.isEmpty_map, List.length_map, partHeights_shift hd]

section
variable [FloorRing K]

theorem rasterLoop_shift (hd : ∀ x, C.toDouble x = x) (lr : Bool) (f : FacePrint K) (b : Box2 K) (p : K) (i0 j0 w width : Nat) (ns : List Nat) : ∀ s,
    FacePrint.rasterLoop C lr (face v f) (box v b) p i0 j0 w width ns s = FacePrint.rasterLoop C lr f b p i0 j0 w width ns s := by
  induction ns with
  | nil => intro s; rfl
  | cons n ns ih =>
    intro s
    have h1 : (box v b).xmin + ((n % w : Nat) : K) * p = b.xmin + ((n % w : Nat) : K) * p + v.x := by simp only [box]; ring
    have h2 : (box v b).ymax - ((n / w : Nat) : K) * p = b.ymax - ((n / w : Nat) : K) * p + v.y := by simp only [box]; ring
    simp only [FacePrint.rasterLoop]
    rw [h1, h2, pixelHeight_shift M hd]
    simp only [ih]

theorem rasterize_shift (hd : ∀ x, C.toDouble x = x) (lr : Bool) (f : FacePrint K) (left top : K) (height width : Nat) (p : K) (s : List K × List Int) :
    FacePrint.rasterize C lr (face v f) (left + v.x) (top + v.y) height width p s = FacePrint.rasterize C lr f left top height width p s := by
  unfold FacePrint.rasterize
  rw [degenerate_shift, bbox_shift]
  cases f.bbox with
  | none => rfl
  | some b =>
    have e1 : top + v.y - (box v b).ymax = top - b.ymax := by simp only [box]; ring
    have e2 : (box v b).xmin - (left + v.x) = b.xmin - left := by simp only [box]; ring
    have e3 : (box v b).xmax - (box v b).xmin = b.xmax - b.xmin := by simp only [box]; ring
    have e4 : (box v b).ymax - (box v b).ymin = b.ymax - b.ymin := by simp only [box]; ring
    simp only [Option.map_some, e1, e2, e3, e4, rasterLoop_shift M hd]

theorem paint_shift (hd : ∀ x, C.toDouble x = x) (lr : Bool) (left top : K) (height width : Nat) (p : K) (fs : List (FacePrint K)) : ∀ s,
    Raster.paint C lr (left + v.x) (top + v.y) height width p (fs.map (face v)) s = Raster.paint C lr left top height width p fs s := by
  induction fs with
  | nil => intro s; rfl
  | cons f fs ih =>
    intro s
    simp only [List.map_cons, Raster.paint, rasterize_shift M hd, ih]

theorem ofFootPrint_shift (hd : ∀ x, C.toDouble x = x) (lr : Bool) (fp : FootPrint K) (p : K) :
    Raster.ofFootPrint C lr (foot v fp) p = Raster.ofFootPrint C lr fp p := by
  unfold Raster.ofFootPrint
  rw [show (foot v fp).brick.bbox = fp.brick.bbox.map (box v) from rfl]
  cases fp.brick.bbox with
  | none => rfl
  | some b =>
    have e3 : (box v b).xmax - (box v b).xmin = b.xmax - b.xmin := by simp only [box]; ring
    have e4 : (box v b).ymax - (box v b).ymin = b.ymax - b.ymin := by simp only [box]; ring
    have e5 : (ref v fp.ref).x + (box v b).xmin = fp.ref.x + b.xmin := by simp only [box, ref]; ring
    have e6 : (ref v fp.ref).y + (box v b).ymax = fp.ref.y + b.ymax := by simp only [box, ref]; ring
    simp only [Option.map_some, e3, e4, foot, e5, e6]
    rw [show (box v b).xmin = b.xmin + v.x from rfl, show (box v b).ymax = b.ymax + v.y from rfl,
      show (brick v fp.brick).faces = fp.brick.faces.map (face v) from rfl]
    simp only [paint_shift M hd]
    rfl

end

end
end City.Spec
