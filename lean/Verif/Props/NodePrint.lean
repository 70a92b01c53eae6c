import Verif.Props.BrickOrder
import Verif.Props.Raster

/-! C101: from the facets of a building to the pixels of its elevation map. -/

namespace City.Props
open City City.Spec City.FacePrint City.Brick

set_option linter.unusedSectionVars false

variable {K : Type} [Field K] [LinearOrder K] [IsStrictOrderedRing K] [FloorRing K]
variable {C : Cgal K} {Ok : Pwh K → Prop} {Good : C.PSet → Prop} {Gen : V2 K → Prop}

/-- A building whose roofs can be mapped: the facets that are not vertical are regions that CGAL can handle, not too steep, and at least one. -/
structure Roofed (C : Cgal K) (Ok : Pwh K → Prop) (facets : List (Facet K)) : Prop where
  valid : ∀ f ∈ orthoprint C facets, ValidFace Ok f ∧ eps ≤ |f.plane.c|
  some_roof : orthoprint C facets ≠ []
  bounded : ∀ q r, ∀ s ∈ C.inter q r, s.outer ≠ []

/-- C101: the footprint of a building has its name, its reference point and its EPSG code; it covers ground only under a facet, at the height this facet
has there, and keeps the identifiers of the facets. -/
theorem C101_footprint (L : Lawful C Ok Good Gen) (name : Text) (ref : V3 K) (epsg : Nat) (facets : List (Facet K)) (h : Roofed C Ok facets) :
    ∃ fp, FootPrint.ofNode C name ref epsg facets = .ok fp ∧ fp.name = name ∧ fp.ref = ref ∧ fp.epsg = epsg ∧
      ∀ f ∈ fp.brick.faces, ∃ g ∈ orthoprint C facets, f.id = g.id ∧ (∀ p, zAt f p = zAt g p) ∧
        ∀ p, Gen p → Interior C f.border p → Interior C g.border p := by
  have hval : ∀ f ∈ orthoprint C facets, ValidFace Ok f := fun f hf => (h.valid f hf).1
  obtain ⟨b, h1, h2, -⟩ := C44_no_new_ground L (orthoprint C facets) hval
  refine ⟨⟨name, ref, epsg, b⟩, ?_, rfl, rfl, rfl, fun f hf => ?_⟩
  · unfold FootPrint.ofNode
    rw [sumPrints_valid L _ _ hval (by simp [Brick.empty]), h1]
    rfl
  · obtain ⟨-, g, hg, k1, k2, k3⟩ := h2 f hf
    exact ⟨g, hg, k1, fun p => by unfold zAt; rw [k2], k3⟩

/-- C101: the footprint of a building whose roofs do not overlap when they are seen from above has exactly these roofs as its faces, in order, and the
height of the building is over every point inside a roof the height of this roof, and 0 elsewhere. -/
theorem C101_roofs (L : Lawful C Ok Good Gen) (name : Text) (ref : V3 K) (epsg : Nat) (facets : List (Facet K)) (h : Roofed C Ok facets)
    (hno : NoOverlap C Gen (orthoprint C facets)) :
    ∃ fp, FootPrint.ofNode C name ref epsg facets = .ok fp ∧ fp.name = name ∧ fp.ref = ref ∧ fp.epsg = epsg ∧
      fp.brick.faces = orthoprint C facets ∧
      ∀ p, Gen p → (∀ f ∈ orthoprint C facets, Interior C f.border p → fp.brick.height C p = .ok (zAt f p)) ∧
        (¬ Ground C (orthoprint C facets) p → fp.brick.height C p = .ok 0) := by
  have hval : ∀ f ∈ orthoprint C facets, ValidFace Ok f := fun f hf => (h.valid f hf).1
  obtain ⟨b, h1, h2, h3⟩ := C46_apart L (orthoprint C facets) hval hno
  refine ⟨⟨name, ref, epsg, b⟩, ?_, rfl, rfl, rfl, h2, h3⟩
  unfold FootPrint.ofNode
  rw [sumPrints_valid L _ _ hval (by simp [Brick.empty]), h1]
  rfl

/-- C101, as it is stated: the elevation map of a building whose roofs do not overlap shows in every pixel the roofs that meet it. -/
def C101_full : Prop := ∀ (C : Cgal ℚ) (Ok : Pwh ℚ → Prop) (Good : C.PSet → Prop) (Gen : V2 ℚ → Prop), Lawful C Ok Good Gen →
  ∀ (name : Text) (ref : V3 ℚ) (epsg : Nat) (facets : List (Facet ℚ)) (p : ℚ), Roofed C Ok facets → NoOverlap C Gen (orthoprint C facets) →
  (orthoprint C facets).length ≤ 32767 → 0 < p →
  ∃ fp B, FootPrint.ofNode C name ref epsg facets = .ok fp ∧ fp.brick.bbox = some B ∧
    (⌈(B.ymax - B.ymin) / p⌉ < 2 ^ 64 → ⌈(B.xmax - B.xmin) / p⌉ < 2 ^ 64 →
    ∃ r, Raster.ofFootPrint C true fp p = .ok r ∧ ∀ i < r.height, ∀ j < r.width, Ok (cell B.xmin B.ymax p i j) →
      ∃ n v, r.hit i j = .ok n ∧ r.at' i j = .ok v ∧ PixelIs C Gen (cell B.xmin B.ymax p i j) (orthoprint C facets) ref.z n v)

/-- C101, the part that holds: this is so when the boxes of the roofs are aligned with the pixels; the image has the position, the name and the code of the
building. Missing: roofs that are not aligned, which are painted in pixels of their own. -/
theorem C101_pixels_partial (L : Lawful C Ok Good Gen) (name : Text) (ref : V3 K) (epsg : Nat) (facets : List (Facet K)) (p : K) (h : Roofed C Ok facets)
    (hno : NoOverlap C Gen (orthoprint C facets)) (hc : (orthoprint C facets).length ≤ 32767) (hp : 0 < p) :
    ∃ fp B, FootPrint.ofNode C name ref epsg facets = .ok fp ∧ fp.brick.bbox = some B ∧
      (⌈(B.ymax - B.ymin) / p⌉ < 2 ^ 64 → ⌈(B.xmax - B.xmin) / p⌉ < 2 ^ 64 →
      (∀ f ∈ orthoprint C facets, ∀ b, f.bbox = some b → AlignedBox B.xmin B.ymax p b) →
      ∃ r, Raster.ofFootPrint C true fp p = .ok r ∧ r.name = name ∧ r.epsg = epsg ∧ r.ref = ⟨ref.x + B.xmin, ref.y + B.ymax, ref.z⟩ ∧
        (r.height : ℤ) = ⌈(B.ymax - B.ymin) / p⌉ ∧ (r.width : ℤ) = ⌈(B.xmax - B.xmin) / p⌉ ∧
        ∀ i < r.height, ∀ j < r.width, Ok (cell B.xmin B.ymax p i j) →
        ∃ n v, r.hit i j = .ok n ∧ r.at' i j = .ok v ∧ PixelIs C Gen (cell B.xmin B.ymax p i j) (orthoprint C facets) ref.z n v) := by
  obtain ⟨fp, B, h1, h2, h3, h4, -⟩ := C51_node L name ref epsg facets h.valid h.some_roof h.bounded
  obtain ⟨fp', k1, k2, k3, k4, k5, -⟩ := C101_roofs L name ref epsg facets h hno
  have e : fp' = fp := by rw [h1] at k1; exact (Out.ok.inj k1).symm
  subst e
  refine ⟨fp', B, h1, h2, fun s1 s2 ha => ?_⟩
  have hr : Rasterable C Ok fp' B p := ⟨h2, h3, hp, by rw [k5]; exact h.valid, fun f hf => (h4 f hf).2, h.bounded, ⟨s1, s2⟩, by rw [k5]; exact hc⟩
  obtain ⟨r, r1, r2⟩ := C52_aligned_partial L fp' B p hr (by rw [k5]; exact ha)
  obtain ⟨r', q1, q2, q3, -, -, -, q4, q5, q6, -⟩ := C51_defined (C := C) fp' B h2 p hp (hr.paintable L) h3 ⟨s1, s2⟩
  have e : r' = r := by rw [r1] at q1; exact (Out.ok.inj q1).symm
  subst e
  refine ⟨r', r1, by rw [q4, k2], by rw [q5, k4], by rw [q6, k3], q2, q3, fun i hi j hj hq => ?_⟩
  obtain ⟨n, v, a, b, c⟩ := r2 i hi j hj hq
  exact ⟨n, v, a, b, by rw [← k5, ← k3]; exact c⟩

/-- The facets of a shed of one by two units at 3 m beside a house at 7 m, with the wall between them: for the examples. -/
def shedFacets : List (Facet ℚ) := [⟨1, [⟨0, 0, 3⟩, ⟨1, 0, 3⟩, ⟨1, 2, 3⟩, ⟨0, 2, 3⟩]⟩, ⟨9, [⟨1, 0, 3⟩, ⟨1, 0, 7⟩, ⟨1, 2, 7⟩, ⟨1, 2, 3⟩]⟩,
  ⟨2, [⟨1, 0, 7⟩, ⟨3, 0, 7⟩, ⟨3, 2, 7⟩, ⟨1, 2, 7⟩]⟩]

/-- The two roofs, seen from above. -/
def shedRoofs : List (FacePrint ℚ) := [⟨1, rect ⟨0, 0, 1, 2⟩, ⟨0, 0, 2, -6⟩⟩, ⟨2, rect ⟨1, 0, 3, 2⟩, ⟨0, 0, 4, -28⟩⟩]

theorem shed_prints : orthoprint rectCgal shedFacets = shedRoofs := by decide +kernel

theorem shed_rects (f : FacePrint ℚ) (hf : f ∈ shedRoofs) : ∃ (a b c d : ℤ), a < c ∧ b < d ∧ f.border = rect ⟨a, b, c, d⟩ ∧ 1 ≤ |f.plane.c| := by
  unfold shedRoofs at hf
  simp only [List.mem_cons, List.not_mem_nil, or_false] at hf
  rcases hf with rfl | rfl
  · exact ⟨0, 0, 1, 2, by decide, by decide, by norm_num, by norm_num⟩
  · exact ⟨1, 0, 3, 2, by decide, by decide, by norm_num, by norm_num⟩

theorem shed_roofed : Roofed rectCgal RectOk shedFacets where
  valid := by
    rw [shed_prints]
    intro f hf
    obtain ⟨a, b, c, d, h1, h2, h3, h4⟩ := shed_rects f hf
    refine ⟨⟨?_, fun h0 => ?_⟩, eps_le_one.trans ?_⟩
    · rw [h3]
      exact (slab_valid 1 a b c d 0 h1 h2).1
    · rw [h0, abs_zero] at h4
      norm_num at h4
    · simpa using h4
  some_roof := by rw [shed_prints]; simp [shedRoofs]
  bounded := rect_bounded

theorem shed_apart : NoOverlap rectCgal RectGen (orthoprint rectCgal shedFacets) := by
  rw [shed_prints]
  unfold NoOverlap shedRoofs
  rw [List.pairwise_cons]
  refine ⟨?_, List.pairwise_singleton _ _⟩
  intro f hf
  rw [List.mem_singleton] at hf
  subst hf
  rintro p _ ⟨h1, h2⟩
  have a := (slab_interior 1 0 0 1 2 3 (by norm_num) (by norm_num) p).1 h1
  have b := (slab_interior 2 1 0 3 2 7 (by norm_num) (by norm_num) p).1 h2
  linarith [a.2.1, b.1]

theorem shed_image : (FootPrint.ofNode rectCgal [] ⟨100, 200, 50⟩ 2154 shedFacets >>= fun fp => Raster.ofFootPrint rectCgal true fp 2) =
    .ok ⟨[], ⟨100, 202, 50⟩, 2154, 1, 2, 2, [55, 0], [2, 0], true⟩ := by decide +kernel

theorem shed_print : FootPrint.ofNode rectCgal [] ⟨100, 200, 50⟩ 2154 shedFacets = .ok ⟨[], ⟨100, 200, 50⟩, 2154, ⟨some ⟨0, 0, 3, 2⟩, shedRoofs⟩⟩ := by
  decide +kernel

/-- C101 is false: with pixels of 2 m the house, which begins 1 m from the left, is not in the second pixel, that it covers. -/
theorem C101_refuted : ¬ C101_full := by
  intro h
  obtain ⟨fp, B, h1, h2, h3⟩ := h rectCgal RectOk RectGood RectGen rect_lawful [] ⟨100, 200, 50⟩ 2154 shedFacets 2 shed_roofed shed_apart
    (by rw [shed_prints]; decide) (by norm_num)
  have hi := shed_image
  rw [h1, Out.ok_bind] at hi
  rw [shed_print] at h1
  cases h1
  cases h2
  obtain ⟨r, hr, hall⟩ := h3 (by norm_num) (by norm_num)
  rw [hi] at hr
  cases hr
  have hq : RectOk (cell (0 : ℚ) 2 2 0 1) := by
    have := cell_ok 0 2 2 0 1 (by decide)
    unfold cell
    push_cast at this ⊢
    exact this
  obtain ⟨n, v, k1, _, zs, hzs, hn, _⟩ := hall 0 (by decide) 1 (by decide) hq
  have k1' : (.ok 0 : Out Int) = .ok n := k1
  cases k1'
  have hz : zs = [] := List.length_eq_zero_iff.1 (by exact_mod_cast hn.symm)
  rw [hz, List.forall₂_nil_right_iff, List.filter_eq_nil_iff, shed_prints] at hzs
  refine hzs ⟨2, rect ⟨1, 0, 3, 2⟩, ⟨0, 0, 4, -28⟩⟩ (by simp [shedRoofs]) ?_
  rw [@decide_eq_true_iff _ (Classical.propDecidable _)]
  refine ⟨⟨((2 : ℤ) : ℚ) + 1 / 2, ((0 : ℤ) : ℚ) + 1 / 2⟩, half_gen 2 0, ?_, (slab_interior 2 1 0 3 2 7 (by norm_num) (by norm_num) _).2 (by norm_num)⟩
  refine (interior_isRect (b := ⟨2, 0, 4, 2⟩) ⟨by norm_num, by norm_num⟩ ⟨rfl, ⟨1, by simp [cell, square, rect]; norm_num⟩⟩ _).2 ?_
  unfold InRect
  norm_num

/-- The same building is mapped as expected in pixels of 1 m. -/
example : ∃ fp r, FootPrint.ofNode rectCgal [] ⟨100, 200, 50⟩ 2154 shedFacets = .ok fp ∧ Raster.ofFootPrint rectCgal true fp 1 = .ok r ∧
    r.image = [53, 57, 57, 53, 57, 57] ∧ r.hits = [1, 1, 1, 1, 1, 1] := ⟨_, ⟨[], ⟨100, 202, 50⟩, 2154, 2, 3, 1, _, _, true⟩, shed_print, by decide +kernel, rfl, rfl⟩

/-- Its roofs are aligned with these pixels. -/
example : ∀ f ∈ orthoprint rectCgal shedFacets, ∀ b, f.bbox = some b → AlignedBox 0 2 1 b := by
  rw [shed_prints]
  intro f hf b hb
  unfold shedRoofs at hf
  simp only [List.mem_cons, List.not_mem_nil, or_false] at hf
  rcases hf with rfl | rfl
  · obtain rfl := Option.some.inj ((show (slab 1 0 0 1 2 3).bbox = some ⟨0, 0, 1, 2⟩ by decide +kernel).symm.trans hb)
    exact ⟨0, 0, by norm_num, by norm_num⟩
  · obtain rfl := Option.some.inj ((show (slab 2 1 0 3 2 7).bbox = some ⟨1, 0, 3, 2⟩ by decide +kernel).symm.trans hb)
    exact ⟨1, 0, by norm_num, by norm_num⟩

end City.Props
