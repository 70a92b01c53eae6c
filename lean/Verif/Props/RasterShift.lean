import Verif.Props.NodePrint

/-! C52 and C101 for faces that are not aligned with the pixels: every face is displaced, by less than one pixel. -/

namespace City.Props
open City City.Spec City.FacePrint City.Brick

set_option linter.unusedSectionVars false

section
variable {K : Type} [Field K] [LinearOrder K] [IsStrictOrderedRing K] [FloorRing K]
variable {C : Cgal K} {Ok : Pwh K → Prop} {Good : C.PSet → Prop} {Gen : V2 K → Prop}

/-- The square that is shown for the face in the pixel of row `i` and column `j`: that of the pixel, moved to the right and down. -/
def movedCell (left top p : K) (off : FacePrint K → K × K) (f : FacePrint K) (i j : Nat) : Pwh K :=
  cell (left + (off f).1) (top - (off f).2) p i j

open Classical in
/-- A pixel as in `PixelIs`, except that each face has been displaced. -/
def MovedPixelIs (C : Cgal K) (Gen : V2 K → Prop) (left top p : K) (off : FacePrint K → K × K) (i j : Nat) (fs : List (FacePrint K)) (z0 : K) (hits : Int)
    (value : K) : Prop :=
  ∃ zs, List.Forall₂ (fun f z => HeightOver C Gen (movedCell left top p off f i j) f z)
      (fs.filter fun f => decide (MeetsAt C Gen (movedCell left top p off f i j) f)) zs ∧
    hits = zs.length ∧ value = if zs = [] then 0 else z0 + mean zs

/-- How far the code moves a face: the rest of the division of its position by the size of a pixel. -/
def moveOf (left top p : K) (f : FacePrint K) : K × K :=
  match f.bbox with
  | none => (0, 0)
  | some b => (b.xmin - left - ⌊(b.xmin - left) / p⌋ * p, top - b.ymax - ⌊(top - b.ymax) / p⌋ * p)

theorem rest_bounds {a p : K} (hp : 0 < p) : 0 ≤ a - ⌊a / p⌋ * p ∧ a - ⌊a / p⌋ * p < p := by
  have h1 : (⌊a / p⌋ : K) * p ≤ a := by
    have := mul_le_mul_of_nonneg_right (Int.floor_le (a / p)) hp.le
    rwa [div_mul_cancel₀ _ hp.ne'] at this
  have h2 : a < (⌊a / p⌋ + 1 : K) * p := by
    have := mul_lt_mul_of_pos_right (Int.lt_floor_add_one (a / p)) hp
    rwa [div_mul_cancel₀ _ hp.ne'] at this
  constructor <;> linarith

theorem moveOf_bounds {left top p : K} (hp : 0 < p) (f : FacePrint K) :
    0 ≤ (moveOf left top p f).1 ∧ (moveOf left top p f).1 < p ∧ 0 ≤ (moveOf left top p f).2 ∧ (moveOf left top p f).2 < p := by
  unfold moveOf
  cases f.bbox with
  | none => exact ⟨le_rfl, hp, le_rfl, hp⟩
  | some b => exact ⟨(rest_bounds hp).1, (rest_bounds hp).2, (rest_bounds hp).1, (rest_bounds hp).2⟩

theorem reported_moved (L : Lawful C Ok Good Gen) (f : FacePrint K) (hf : ValidFace Ok f) (hc : eps ≤ |f.plane.c|) {left top p : K} (hp : 0 < p)
    {b : Box2 K} (hb : f.bbox = some b) (i j : Nat) (hq : Ok (movedCell left top p (moveOf left top p) f i j)) :
    f.pixelHeight C (left + (moveOf left top p f).1 + (j : K) * p) (top - (moveOf left top p f).2 - (i : K) * p) p = .ok (reported C left top p i j f) := by
  have ha : AlignedBox (left + (moveOf left top p f).1) (top - (moveOf left top p f).2) p b := by
    refine ⟨⌊(b.xmin - left) / p⌋, ⌊(top - b.ymax) / p⌋, ?_, ?_⟩ <;> unfold moveOf <;> rw [hb] <;> dsimp only <;> ring
  rw [reported_aligned L f hf hc hp hb ha i j hq]
  congr 1
  have e1 : (b.xmin - (left + (moveOf left top p f).1)) / p = ((⌊(b.xmin - left) / p⌋ : ℤ) : K) := by
    unfold moveOf
    rw [hb]
    dsimp only
    rw [div_eq_iff hp.ne']
    ring
  have e2 : (top - (moveOf left top p f).2 - b.ymax) / p = ((⌊(top - b.ymax) / p⌋ : ℤ) : K) := by
    unfold moveOf
    rw [hb]
    dsimp only
    rw [div_eq_iff hp.ne']
    ring
  unfold reported
  rw [hb]
  dsimp only
  rw [e1, e2, Int.floor_intCast, Int.floor_intCast]

/-- The displacement, explicitly. -/
theorem moved_pixels (L : Lawful C Ok Good Gen) (fp : FootPrint K) (B : Box2 K) (p : K) (h : Rasterable C Ok fp B p) :
    ∃ r, Raster.ofFootPrint C true fp p = .ok r ∧ ∀ i < r.height, ∀ j < r.width, (∀ f ∈ fp.brick.faces, Ok (movedCell B.xmin B.ymax p (moveOf B.xmin B.ymax p) f i j)) →
        ∃ n v, r.hit i j = .ok n ∧ r.at' i j = .ok v ∧ MovedPixelIs C Gen B.xmin B.ymax p (moveOf B.xmin B.ymax p) i j fp.brick.faces fp.ref.z n v := by
  obtain ⟨r, hr, hall⟩ := C52_mean_partial L fp B p h
  refine ⟨r, hr, fun i hi j hj hq => ?_⟩
  obtain ⟨zs, hzs, h1, h2⟩ := hall i hi j hj
  refine ⟨_, _, h1, h2, zs, ?_, rfl, rfl⟩
  rw [hzs]
  have key : ∀ fs : List (FacePrint K), (∀ f ∈ fs, f ∈ fp.brick.faces) →
      List.Forall₂ (fun f z => HeightOver C Gen (movedCell B.xmin B.ymax p (moveOf B.xmin B.ymax p) f i j) f z)
        (fs.filter fun f => @decide (MeetsAt C Gen (movedCell B.xmin B.ymax p (moveOf B.xmin B.ymax p) f i j) f) (Classical.propDecidable _))
        (fs.filterMap (reported C B.xmin B.ymax p i j)) := by
    intro fs
    induction fs with
    | nil => intro _; exact List.Forall₂.nil
    | cons f fs ih =>
      intro hfs
      have ih' := ih fun g hg => hfs g (List.mem_cons_of_mem _ hg)
      have hf := hfs f List.mem_cons_self
      obtain ⟨b, hb, _⟩ : ∃ b, f.bbox = some b ∧ ProperBox b ∧ SubBox b B := by
        refine polyBox_sub ?_ (h.inside f hf)
        intro hnil
        have := L.three _ (h.valid f hf).1.1
        rw [hnil] at this
        simp at this
      have hrep := reported_moved L f (h.valid f hf).1 (h.valid f hf).2 h.pixel hb i j (hq f hf)
      obtain ⟨z, hz, hhit, hover⟩ := C52_height L f (h.valid f hf).1.1 (h.valid f hf).2 _ _ p (hq f hf)
      rw [hrep] at hz
      cases hz
      rw [List.filter_cons, List.filterMap_cons]
      cases hr' : reported C B.xmin B.ymax p i j f with
      | none =>
        rw [if_neg]
        · exact ih'
        · rw [@decide_eq_true_iff _ (Classical.propDecidable _)]
          intro hm
          exact hhit.2 hm hr'
      | some z =>
        rw [if_pos]
        · exact List.Forall₂.cons (hover z hr') ih'
        · rw [@decide_eq_true_iff _ (Classical.propDecidable _)]
          exact hhit.1 (by rw [hr']; simp)
  exact key _ fun f hf => hf

/-- C52, for faces at any place: an image shows every face displaced to the left and up by less than one pixel, the same for all pixels; apart from this the
count and the value of every pixel are what a user expects. -/
theorem C52_displaced_partial (L : Lawful C Ok Good Gen) (fp : FootPrint K) (B : Box2 K) (p : K) (h : Rasterable C Ok fp B p) :
    ∃ (off : FacePrint K → K × K), (∀ f, 0 ≤ (off f).1 ∧ (off f).1 < p ∧ 0 ≤ (off f).2 ∧ (off f).2 < p) ∧
      (∀ f b, f.bbox = some b → AlignedBox B.xmin B.ymax p b → off f = (0, 0)) ∧
      ∃ r, Raster.ofFootPrint C true fp p = .ok r ∧ ∀ i < r.height, ∀ j < r.width, (∀ f ∈ fp.brick.faces, Ok (movedCell B.xmin B.ymax p off f i j)) →
        ∃ n v, r.hit i j = .ok n ∧ r.at' i j = .ok v ∧ MovedPixelIs C Gen B.xmin B.ymax p off i j fp.brick.faces fp.ref.z n v := by
  refine ⟨moveOf B.xmin B.ymax p, moveOf_bounds h.pixel, ?_, moved_pixels L fp B p h⟩
  rintro f b hb ⟨m, n, hm, hn⟩
  have fm : ⌊(b.xmin - B.xmin) / p⌋ = m := by
    rw [hm, add_sub_cancel_left, mul_div_cancel_right₀ _ h.pixel.ne', Int.floor_intCast]
  have fn : ⌊(B.ymax - b.ymax) / p⌋ = n := by
    rw [hn, sub_sub_cancel, mul_div_cancel_right₀ _ h.pixel.ne', Int.floor_intCast]
  unfold moveOf
  rw [hb]
  dsimp only
  rw [fm, fn, hm, hn]
  exact Prod.ext (by simp) (by simp)

/-- C52: nothing of a face is lost: if a point is inside the face and inside the displaced square of row `i` and column `j`, this pixel is in the image, was hit,
and is the pixel of the point, its neighbour to the left, above, or to the left and above. -/
theorem C52_nothing_lost (L : Lawful C Ok Good Gen) (fp : FootPrint K) (B : Box2 K) (p : K) (h : Rasterable C Ok fp B p) :
    ∃ (off : FacePrint K → K × K), (∀ f, 0 ≤ (off f).1 ∧ (off f).1 < p ∧ 0 ≤ (off f).2 ∧ (off f).2 < p) ∧
      ∃ r, Raster.ofFootPrint C true fp p = .ok r ∧ ∀ f ∈ fp.brick.faces, ∀ v, Gen v → Interior C f.border v →
        ∀ i j : Nat, Ok (movedCell B.xmin B.ymax p off f i j) → Interior C (movedCell B.xmin B.ymax p off f i j) v →
          i < r.height ∧ j < r.width ∧ (∃ n, r.hit i j = .ok n ∧ 0 < n) ∧
          B.xmin + (j : K) * p < v.x ∧ v.x < B.xmin + ((j : K) + 2) * p ∧ B.ymax - ((i : K) + 2) * p < v.y ∧ v.y < B.ymax - (i : K) * p := by
  obtain ⟨r, hr, hall⟩ := C52_mean_partial L fp B p h
  obtain ⟨r', hr', s1, s2, -⟩ := C51_defined (C := C) fp B h.box p h.pixel (h.paintable L) h.proper h.fits
  have e : r' = r := by rw [hr] at hr'; exact (Out.ok.inj hr').symm
  subst e
  refine ⟨moveOf B.xmin B.ymax p, moveOf_bounds h.pixel, r', hr, fun f hf v hv hi i j hq hc => ?_⟩
  obtain ⟨b, hb, hpr, hsub⟩ : ∃ b, f.bbox = some b ∧ ProperBox b ∧ SubBox b B := by
    refine polyBox_sub ?_ (h.inside f hf)
    intro hnil
    have := L.three _ (h.valid f hf).1.1
    rw [hnil] at this
    simp at this
  have hrep := reported_moved L f (h.valid f hf).1 (h.valid f hf).2 h.pixel hb i j hq
  obtain ⟨z, hz, hhit, -⟩ := C52_height L f (h.valid f hf).1.1 (h.valid f hf).2 _ _ p hq
  rw [hrep] at hz
  cases hz
  have hne := hhit.2 ⟨v, hv, hc, hi⟩
  obtain ⟨z, hz⟩ := Option.ne_none_iff_exists'.1 hne
  obtain ⟨-, -, -, -, g5, g6⟩ := grid_fits hpr hsub h.pixel
  have hin : i < r'.height ∧ j < r'.width := by
    have hz' := hz
    unfold reported at hz'
    rw [hb] at hz'
    dsimp only at hz'
    rw [if_neg (by rw [notDegenerate L (h.valid f hf).1]; simp)] at hz'
    split at hz'
    · rename_i k
      omega
    · cases hz'
  obtain ⟨m1, m2, m3, m4⟩ := moveOf_bounds (left := B.xmin) (top := B.ymax) h.pixel f
  have hcell : ∀ u ∈ (movedCell B.xmin B.ymax p (moveOf B.xmin B.ymax p) f i j).outer,
      B.xmin + (j : K) * p ≤ u.x ∧ u.x ≤ B.xmin + ((j : K) + 2) * p ∧ B.ymax - ((i : K) + 2) * p ≤ u.y ∧ u.y ≤ B.ymax - (i : K) * p := by
    intro u hu
    have hp := h.pixel
    simp only [movedCell, cell, square, List.mem_cons, List.not_mem_nil, or_false] at hu
    rcases hu with rfl | rfl | rfl | rfl <;> refine ⟨?_, ?_, ?_, ?_⟩ <;> dsimp only <;> linarith
  have t1 := L.strict _ hq v hv hc 1 0 (-(B.xmin + (j : K) * p)) (Or.inl one_ne_zero) (fun u hu => by linarith [(hcell u hu).1])
  have t2 := L.strict _ hq v hv hc (-1) 0 (B.xmin + ((j : K) + 2) * p) (Or.inl (by simp)) (fun u hu => by linarith [(hcell u hu).2.1])
  have t3 := L.strict _ hq v hv hc 0 1 (-(B.ymax - ((i : K) + 2) * p)) (Or.inr one_ne_zero) (fun u hu => by linarith [(hcell u hu).2.2.1])
  have t4 := L.strict _ hq v hv hc 0 (-1) (B.ymax - (i : K) * p) (Or.inr (by simp)) (fun u hu => by linarith [(hcell u hu).2.2.2])
  refine ⟨hin.1, hin.2, ?_, by linarith, by linarith, by linarith, by linarith⟩
  obtain ⟨zs, hzs, h1, -⟩ := hall i hin.1 j hin.2
  refine ⟨_, h1, ?_⟩
  have : z ∈ zs := by rw [hzs]; exact List.mem_filterMap.2 ⟨f, hf, hz⟩
  exact_mod_cast List.length_pos_of_mem this

/-- C101 for roofs at any place: each roof is displaced by less than one pixel. -/
theorem C101_displaced_partial (L : Lawful C Ok Good Gen) (name : Text) (ref : V3 K) (epsg : Nat) (facets : List (Facet K)) (p : K) (h : Roofed C Ok facets)
    (hno : NoOverlap C Gen (orthoprint C facets)) (hc : (orthoprint C facets).length ≤ 32767) (hp : 0 < p) :
    ∃ fp B, FootPrint.ofNode C name ref epsg facets = .ok fp ∧ fp.brick.bbox = some B ∧
      (⌈(B.ymax - B.ymin) / p⌉ < 2 ^ 64 → ⌈(B.xmax - B.xmin) / p⌉ < 2 ^ 64 →
      ∃ (off : FacePrint K → K × K), (∀ f, 0 ≤ (off f).1 ∧ (off f).1 < p ∧ 0 ≤ (off f).2 ∧ (off f).2 < p) ∧
      ∃ r, Raster.ofFootPrint C true fp p = .ok r ∧ ∀ i < r.height, ∀ j < r.width, (∀ f ∈ orthoprint C facets, Ok (movedCell B.xmin B.ymax p off f i j)) →
        ∃ n v, r.hit i j = .ok n ∧ r.at' i j = .ok v ∧ MovedPixelIs C Gen B.xmin B.ymax p off i j (orthoprint C facets) ref.z n v) := by
  obtain ⟨fp, B, h1, h2, h3, h4, -⟩ := C51_node L name ref epsg facets h.valid h.some_roof h.bounded
  obtain ⟨fp', k1, k2, k3, k4, k5, -⟩ := C101_roofs L name ref epsg facets h hno
  have e : fp' = fp := by rw [h1] at k1; exact (Out.ok.inj k1).symm
  subst e
  refine ⟨fp', B, h1, h2, fun s1 s2 => ?_⟩
  have hr : Rasterable C Ok fp' B p := ⟨h2, h3, hp, by rw [k5]; exact h.valid, fun f hf => (h4 f hf).2, h.bounded, ⟨s1, s2⟩, by rw [k5]; exact hc⟩
  obtain ⟨off, o1, -, r, r1, r2⟩ := C52_displaced_partial L fp' B p hr
  refine ⟨off, o1, r, r1, fun i hi j hj hq => ?_⟩
  obtain ⟨n, v, a, b, c⟩ := r2 i hi j hj (by rw [k5]; exact hq)
  exact ⟨n, v, a, b, by rw [← k5, ← k3]; exact c⟩

end

/-- The hypotheses are met: the house of C101 in pixels of 2 m, where the second roof is moved by 1 m; all moved squares are valid polygons. -/
example : (∀ i j, ∀ f ∈ shedRoofs, RectOk (movedCell 0 2 2 (moveOf 0 2 2) f i j)) ∧
    (shedRoofs.map (moveOf 0 2 2)) = [(0, 0), (1, 0)] := by
  have e : shedRoofs.map (moveOf 0 2 2) = [(0, 0), (1, 0)] := by decide +kernel
  refine ⟨fun i j f hf => ?_, e⟩
  have hm : moveOf 0 2 2 f ∈ [((0 : ℚ), (0 : ℚ)), (1, 0)] := by
    rw [← e]
    exact List.mem_map_of_mem hf
  unfold movedCell cell
  generalize moveOf 0 2 2 f = o at hm
  simp only [List.mem_cons, List.not_mem_nil, or_false] at hm
  rcases hm with rfl | rfl
  · have := cell_ok 0 2 2 i j (by decide)
    push_cast at this
    simpa using this
  · have := cell_ok 1 2 2 i j (by decide)
    push_cast at this
    simpa using this

end City.Props
