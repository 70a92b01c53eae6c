import Verif.Lemmas.RasterDbl
import Verif.Props.RasterMore
/-!
C51 with the positions, rows and columns computed in doubles.
-/
set_option linter.unusedSectionVars false
namespace City.Props
open City City.Spec City.FacePrint

/-- A finite double: an integer of 53 binary digits times a power of two. -/
def IsDouble (q : ℚ) : Prop := ∃ m e : ℤ, |m| < 2 ^ 53 ∧ -1074 ≤ e ∧ e ≤ 971 ∧ q = m * 2 ^ e

/-- The four coordinates of a box are doubles. -/
def DoubleBox (B : Box2 ℚ) : Prop := IsDouble B.xmin ∧ IsDouble B.ymin ∧ IsDouble B.xmax ∧ IsDouble B.ymax

/-- A face in the box with vertices that are doubles, whose heights can be computed: the plane is not too steep for `get_plane_height`. -/
def DoubleFace (C : Cgal ℚ) (B : Box2 ℚ) (f : FacePrint ℚ) : Prop :=
  f.border.outer ≠ [] ∧ eps ≤ |C.toDouble f.plane.c| ∧ ∀ v ∈ f.border.outer, InBox2 B v ∧ IsDouble v.x ∧ IsDouble v.y

/-- The model with rounded positions is, without rounding, the model of C51 and C52. -/
theorem C51_unrounded {K : Type} [Field K] [LinearOrder K] [IsStrictOrderedRing K] [FloorRing K] (C : Cgal K) (lr : Bool) (fp : FootPrint K) (p : K) :
    Raster.ofFootPrintR C (fun x => x) lr fp p = Raster.ofFootPrint C lr fp p := ofFootPrintR_id C lr fp p

/-- C51 as stated, for doubles: a footprint with faces in its box is rasterised at every positive pixel size. False: `C51_refuted`. -/
def C51_full : Prop := ∀ (C : Cgal ℚ) (fp : FootPrint ℚ) (B : Box2 ℚ) (p : ℚ), (∀ q r, ∀ s ∈ C.inter q r, s.outer ≠ []) → fp.brick.bbox = some B →
  ProperBox B → DoubleBox B → IsDouble p → 0 < p → (∀ f ∈ fp.brick.faces, DoubleFace C B f) →
  ⌈fl (fl (B.ymax - B.ymin) / p)⌉ < 2 ^ 64 → ⌈fl (fl (B.xmax - B.xmin) / p)⌉ < 2 ^ 64 → ∃ r, Raster.ofFootPrintR C fl true fp p = .ok r

/-- The double nearest to `n` tenths. -/
def tenths (n : ℕ) : ℚ := fl ((n : ℚ) / 10)

/-- A roof of 90 cm by 30 cm in two faces, the second from 30 cm to 90 cm. -/
def ledge : FootPrint ℚ :=
  ⟨[], ⟨0, 0, 0⟩, 2154, ⟨some ⟨0, 0, tenths 9, tenths 3⟩, [slab 1 0 0 (tenths 3) (tenths 3) 5, slab 2 (tenths 3) 0 (tenths 9) (tenths 3) 7]⟩⟩

theorem tenths_3 : tenths 3 = 5404319552844595 * 2 ^ (-54 : ℤ) := by decide +kernel

theorem tenths_9 : tenths 9 = 8106479329266893 * 2 ^ (-53 : ℤ) := by decide +kernel

theorem double_3 : IsDouble (tenths 3) := ⟨5404319552844595, -54, by norm_num, by norm_num, by norm_num, by rw [tenths_3]; norm_num⟩

theorem double_9 : IsDouble (tenths 9) := ⟨8106479329266893, -53, by norm_num, by norm_num, by norm_num, by rw [tenths_9]; norm_num⟩

theorem double_0 : IsDouble 0 := ⟨0, 0, by norm_num, by norm_num, by norm_num, by norm_num⟩

theorem slab_double {B : Box2 ℚ} {i : Nat} {x0 y0 x1 y1 z : ℚ} (h : IsDouble x0 ∧ IsDouble y0 ∧ IsDouble x1 ∧ IsDouble y1)
    (hx : B.xmin ≤ x0 ∧ x0 ≤ x1 ∧ x1 ≤ B.xmax) (hy : B.ymin ≤ y0 ∧ y0 ≤ y1 ∧ y1 ≤ B.ymax) : DoubleFace rectCgal B (slab i x0 y0 x1 y1 z) := by
  refine ⟨by simp [slab, rect], ?_, ?_⟩
  · show eps ≤ |(1 : ℚ)|
    unfold eps
    norm_num
  · intro v hv
    have hv' : v = ⟨x0, y0⟩ ∨ v = ⟨x1, y0⟩ ∨ v = ⟨x1, y1⟩ ∨ v = ⟨x0, y1⟩ := by simpa [slab, rect] using hv
    unfold InBox2
    obtain ⟨h1, h2, h3, h4⟩ := h
    obtain ⟨a1, a2, a3⟩ := hx
    obtain ⟨b1, b2, b3⟩ := hy
    rcases hv' with rfl | rfl | rfl | rfl
    · exact ⟨⟨a1, a2.trans a3, b1, b2.trans b3⟩, h1, h2⟩
    · exact ⟨⟨a1.trans a2, a3, b1, b2.trans b3⟩, h3, h2⟩
    · exact ⟨⟨a1.trans a2, a3, b1.trans b2, b3⟩, h3, h4⟩
    · exact ⟨⟨a1, a2.trans a3, b1.trans b2, b3⟩, h1, h4⟩

/-- The image of the ledge has three columns; the second face begins in the column 1 and, because 0.9 - 0.3 is rounded up, takes three. -/
theorem ledge_cells : ceilCellsR fl (tenths 9) 0 (tenths 3) = .ok 3 ∧ floorCellsR fl (tenths 3) 0 (tenths 3) = .ok 1 ∧
    ceilCellsR fl (tenths 9) (tenths 3) (tenths 3) = .ok 3 := by
  refine ⟨by decide +kernel, by decide +kernel, by decide +kernel⟩

/-- C51 is false in doubles: at a pixel size of 30 cm a roof of 90 cm made of two faces is not rasterised: the second face writes a fourth pixel in a row of three. -/
theorem C51_refuted : ¬ C51_full := by
  intro h
  have e3 := tenths_3
  have e9 := tenths_9
  have c0 : (0 : ℚ) ≤ tenths 3 := by rw [e3]; norm_num
  have c1 : tenths 3 ≤ tenths 9 := by rw [e3, e9]; norm_num
  obtain ⟨r, hr⟩ := h rectCgal ledge ⟨0, 0, tenths 9, tenths 3⟩ (tenths 3) rect_bounded rfl ⟨c0.trans c1, c0⟩ ⟨double_0, double_0, double_9, double_3⟩
    double_3 (by rw [e3]; norm_num) (by
      intro f hf
      have hf' : f ∈ [slab 1 0 0 (tenths 3) (tenths 3) 5, slab 2 (tenths 3) 0 (tenths 9) (tenths 3) 7] := hf
      simp only [List.mem_cons, List.not_mem_nil, or_false] at hf'
      rcases hf' with rfl | rfl
      · exact slab_double ⟨double_0, double_0, double_3, double_3⟩ ⟨le_refl _, c0, c1⟩ ⟨le_refl _, c0, le_refl _⟩
      · exact slab_double ⟨double_3, double_0, double_9, double_3⟩ ⟨c0, c1, le_refl _⟩ ⟨le_refl _, c0, le_refl _⟩) (by decide +kernel) (by decide +kernel)
  have : Raster.ofFootPrintR rectCgal fl true ledge (tenths 3) = .thrown .outOfRange := by decide +kernel
  rw [this] at hr
  cases hr

/-- A roof of 90 cm by 60 cm in two faces; the second one is in the upper row only. -/
def porch : FootPrint ℚ :=
  ⟨[], ⟨0, 0, 0⟩, 2154, ⟨some ⟨0, 0, tenths 9, tenths 6⟩,
    [slab 1 0 0 (tenths 3) (tenths 6) 5, slab 2 (tenths 3) (tenths 3) (tenths 9) (tenths 6) 7]⟩⟩

/-- C51: what happens above the last row: the pixel that is too much is the first one of the next row, which the second face is far from: it is given a hit, and the mean of the
two heights. -/
theorem C51_misplaced : ∃ r, Raster.ofFootPrintR rectCgal fl true porch (tenths 3) = .ok r ∧ r.height = 2 ∧ r.width = 3 ∧
    r.hits = [1, 1, 1, 2, 0, 0] ∧ r.image = [5, 7, 7, 6, 0, 0] ∧
    rectCgal.inter (cell 0 (tenths 6) (tenths 3) 1 0) (slab 2 (tenths 3) (tenths 3) (tenths 9) (tenths 6) 7).border = [] := by
  refine ⟨⟨[], ⟨0, tenths 6, 0⟩, 2154, 2, 3, tenths 3, [5, 7, 7, 6, 0, 0], [1, 1, 1, 2, 0, 0], true⟩, by decide +kernel, rfl, rfl, rfl, rfl,
    by decide +kernel⟩

/-- C51, the part that holds, in doubles: when the coordinates and the pixel size are multiples of one power of two with at most 50 binary digits
(whole pixel sizes, halves, quarters, and coordinates in the same units), nothing is rounded and the image is the one of `C51_defined` and `C52_mean_partial`, for every library, all
footprints, in or out of the box. -/
theorem C51_grid_partial (C : Cgal ℚ) (lr : Bool) (fp : FootPrint ℚ) (p : ℚ) (s : ℤ) (hs : -1074 ≤ s) (hp : OnGrid s p) (h0 : 0 < p)
    (hB : ∀ B, fp.brick.bbox = some B → OnGrid s B.xmin ∧ OnGrid s B.ymin ∧ OnGrid s B.xmax ∧ OnGrid s B.ymax)
    (hf : ∀ f ∈ fp.brick.faces, ∀ v ∈ f.border.outer, OnGrid s v.x ∧ OnGrid s v.y) (hr : OnGrid s fp.ref.x ∧ OnGrid s fp.ref.y) :
    Raster.ofFootPrintR C fl lr fp p = Raster.ofFootPrint C lr fp p := by
  unfold Raster.ofFootPrintR Raster.ofFootPrint
  cases hb : fp.brick.bbox with
  | none => rfl
  | some B =>
    obtain ⟨b1, b2, b3, b4⟩ := hB B hb
    have hadd : ∀ {a b : ℚ}, OnGrid s a → OnGrid s b → fl (a + b) = a + b := by
      rintro a b ⟨m, hm, rfl⟩ ⟨n, hn, rfl⟩
      have e : (m : ℚ) * 2 ^ s + n * 2 ^ s = ((m + n : ℤ) : ℚ) * 2 ^ s := by push_cast; ring
      rw [e]
      exact bits_grid ((abs_add_le m n).trans (by omega)) hs
    dsimp only
    rw [(grid_cells hs b4 b2 hp h0).2, (grid_cells hs b3 b1 hp h0).2, hadd hr.1 b1, hadd hr.2 b4]
    simp only [grid_paint C hs hp h0 lr b1 b4 _ _ _ _ hf]

/-- C51 in doubles, on a grid: the footprint is rasterised. -/
theorem C51_grid_defined_partial (C : Cgal ℚ) (fp : FootPrint ℚ) (B : Box2 ℚ) (hB : fp.brick.bbox = some B) (p : ℚ) (s : ℤ) (hs : -1074 ≤ s) (hp : OnGrid s p)
    (h0 : 0 < p) (hg : OnGrid s B.xmin ∧ OnGrid s B.ymin ∧ OnGrid s B.xmax ∧ OnGrid s B.ymax)
    (hf : ∀ f ∈ fp.brick.faces, Paintable C p f ∧ ∀ v ∈ f.border.outer, InBox2 B v ∧ OnGrid s v.x ∧ OnGrid s v.y)
    (hr : OnGrid s fp.ref.x ∧ OnGrid s fp.ref.y) (hpr : ProperBox B)
    (hsz : ⌈(B.ymax - B.ymin) / p⌉ < 2 ^ 64 ∧ ⌈(B.xmax - B.xmin) / p⌉ < 2 ^ 64) :
    ∃ r, Raster.ofFootPrintR C fl true fp p = .ok r ∧ (r.height : ℤ) = ⌈(B.ymax - B.ymin) / p⌉ ∧ (r.width : ℤ) = ⌈(B.xmax - B.xmin) / p⌉ := by
  rw [C51_grid_partial C true fp p s hs hp h0 (fun B' hB' => by rw [hB] at hB'; cases hB'; exact hg) (fun f hf' v hv => ((hf f hf').2 v hv).2) hr]
  obtain ⟨r, h1, h2, h3, _⟩ := C51_defined (C := C) fp B hB p h0 (fun f hf' => ⟨(hf f hf').1, fun v hv => ((hf f hf').2 v hv).1⟩) hpr hsz
  exact ⟨r, h1, h2, h3⟩

/-- C51 on a grid, an example: the faces of the house of C52 moved by an eighth, at a pixel size of three quarters. -/
example : ∃ r, Raster.ofFootPrintR rectCgal fl true ⟨[], ⟨100, 200, 50⟩, 2154, ⟨some ⟨1 / 8, 1 / 8, 9 / 2, 3⟩, [slab 1 (1 / 8) (1 / 8) 2 3 5, slab 2 2 1 (9 / 2) 3 7]⟩⟩ (3 / 4) = .ok r ∧
    r.height = 4 ∧ r.width = 6 := by
  have e : ∀ n : ℤ, |n| ≤ 2 ^ 50 → OnGrid (-3) ((n : ℚ) / 8) := fun n hn => ⟨n, hn, by norm_num [div_eq_mul_inv]⟩
  have a1 : OnGrid (-3) (1 / 8) := by simpa using e 1 (by norm_num)
  have a2 : OnGrid (-3) 2 := by have := e 16 (by norm_num); norm_num at this; exact this
  have a3 : OnGrid (-3) 3 := by have := e 24 (by norm_num); norm_num at this; exact this
  have a4 : OnGrid (-3) (9 / 2) := by have := e 36 (by norm_num); norm_num at this; exact this
  have a5 : OnGrid (-3) 1 := by have := e 8 (by norm_num); norm_num at this; exact this
  have a6 : OnGrid (-3) (3 / 4) := by have := e 6 (by norm_num); norm_num at this; exact this
  have a7 : OnGrid (-3) 100 := by have := e 800 (by norm_num); norm_num at this; exact this
  have a8 : OnGrid (-3) 200 := by have := e 1600 (by norm_num); norm_num at this; exact this
  obtain ⟨r, h1, h2, h3⟩ := C51_grid_defined_partial rectCgal
    ⟨[], ⟨100, 200, 50⟩, 2154, ⟨some ⟨1 / 8, 1 / 8, 9 / 2, 3⟩, [slab 1 (1 / 8) (1 / 8) 2 3 5, slab 2 2 1 (9 / 2) 3 7]⟩⟩ ⟨1 / 8, 1 / 8, 9 / 2, 3⟩ rfl (3 / 4) (-3)
    (by norm_num) a6 (by norm_num) ⟨a1, a1, a4, a3⟩ (by
      intro f hf
      have hf' : f ∈ [slab 1 (1 / 8) (1 / 8) 2 3 5, slab 2 2 1 (9 / 2) 3 7] := hf
      have hc : eps ≤ |(1 : ℚ)| := by unfold eps; norm_num
      simp only [List.mem_cons, List.not_mem_nil, or_false] at hf'
      rcases hf' with rfl | rfl
      · refine ⟨Or.inr ⟨by simp [slab, rect], hc, fun x y q hq => rect_bounded _ _ q hq⟩, fun v hv => ?_⟩
        have hv' : v = ⟨1 / 8, 1 / 8⟩ ∨ v = ⟨2, 1 / 8⟩ ∨ v = ⟨2, 3⟩ ∨ v = ⟨1 / 8, 3⟩ := by simpa [slab, rect] using hv
        unfold InBox2
        rcases hv' with rfl | rfl | rfl | rfl <;> exact ⟨by norm_num, by assumption, by assumption⟩
      · refine ⟨Or.inr ⟨by simp [slab, rect], hc, fun x y q hq => rect_bounded _ _ q hq⟩, fun v hv => ?_⟩
        have hv' : v = ⟨2, 1⟩ ∨ v = ⟨9 / 2, 1⟩ ∨ v = ⟨9 / 2, 3⟩ ∨ v = ⟨2, 3⟩ := by simpa [slab, rect] using hv
        unfold InBox2
        rcases hv' with rfl | rfl | rfl | rfl <;> exact ⟨by norm_num, by assumption, by assumption⟩) ⟨a7, a8⟩ (by unfold ProperBox; norm_num)
    (by constructor <;> decide +kernel)
  have c1 : ⌈((3 : ℚ) - 1 / 8) / (3 / 4)⌉ = 4 := by decide +kernel
  have c2 : ⌈((9 / 2 : ℚ) - 1 / 8) / (3 / 4)⌉ = 6 := by decide +kernel
  exact ⟨r, h1, by rw [c1] at h2; exact_mod_cast h2, by rw [c2] at h3; exact_mod_cast h3⟩

/-! ### Never more than an exception -/

theorem heightIn_ok {C : Cgal ℚ} {f : FacePrint ℚ} (h : eps ≤ |C.toDouble f.plane.c|) {q : Pwh ℚ} (hq : ∀ s ∈ C.inter q f.border, s.outer ≠ []) :
    ∃ z, heightIn C f q = .ok z := by
  unfold heightIn
  split
  · exact ⟨none, rfl⟩
  · obtain ⟨z, hz⟩ := partHeights_ok h _ _ 0 hq
    exact ⟨some z, by rw [hz]; rfl⟩

theorem bump_cases (lr : Bool) (k : Nat) (z : ℚ) (t : List ℚ × List Int) (hl : t.1.length = t.2.length) :
    (∃ t', bump lr k z t = .ok t' ∧ t'.1.length = t.1.length ∧ t'.2.length = t.2.length) ∨ bump lr k z t = .thrown .outOfRange := by
  by_cases hk : k < t.1.length
  · obtain ⟨v, hv⟩ := getElem?_of_lt hk
    obtain ⟨n, hn⟩ := getElem?_of_lt (hl ▸ hk : k < t.2.length)
    exact Or.inl ⟨_, bump_ok hv hn, by simp, by simp⟩
  · right
    unfold bump
    rw [Out.atOr_thrown (not_lt.1 hk)]
    rfl

theorem loopR_cases {C : Cgal ℚ} (rd : ℚ → ℚ) (lr : Bool) {f : FacePrint ℚ} (hc : eps ≤ |C.toDouble f.plane.c|)
    (hbd : ∀ q r, ∀ s ∈ C.inter q r, s.outer ≠ []) (b : Box2 ℚ) (p : ℚ) (i0 j0 w W : Nat) : ∀ (ns : List Nat) (t : List ℚ × List Int),
    t.1.length = t.2.length → (∃ t', rasterLoopR C rd lr f b p i0 j0 w W ns t = .ok t' ∧ t'.1.length = t.1.length ∧ t'.2.length = t.2.length) ∨
      rasterLoopR C rd lr f b p i0 j0 w W ns t = .thrown .outOfRange := by
  intro ns
  induction ns with
  | nil => intro t _; exact Or.inl ⟨t, rfl, rfl, rfl⟩
  | cons n ns ih =>
    intro t hl
    rw [rasterLoopR_cons]
    obtain ⟨z, hz⟩ := heightIn_ok (C := C) (f := f) hc
      (q := squareR rd (rd (b.xmin + rd (rd ((n % w : Nat) : ℚ) * p))) (rd (b.ymax - rd (rd ((n / w : Nat) : ℚ) * p))) p) (fun s hs => hbd _ _ s hs)
    rw [hz, Out.ok_bind]
    cases z with
    | none => exact ih t hl
    | some z =>
      dsimp only
      rcases bump_cases lr (pixelKey i0 j0 w W n) z t hl with ⟨t', e1, e2, e3⟩ | e
      · rw [e1, Out.ok_bind]
        rcases ih t' (by rw [e2, e3, hl]) with ⟨t'', k1, k2, k3⟩ | k
        · exact Or.inl ⟨t'', k1, k2.trans e2, k3.trans e3⟩
        · exact Or.inr k
      · rw [e]; exact Or.inr rfl

/-- Rows and columns of a face in the box. -/
theorem cellsR_ok {t a b c p : ℚ} (h1 : a ≤ t) (h2 : b ≤ a) (h3 : c ≤ b) (hp : 0 < p) (hN : ⌈fl (fl (t - c) / p)⌉ < 2 ^ 64) :
    (∃ n, floorCellsR fl t a p = .ok n ∧ (n : ℤ) = ⌊fl (fl (t - a) / p)⌋) ∧ (∃ n, ceilCellsR fl a b p = .ok n ∧ (n : ℤ) = ⌈fl (fl (a - b) / p)⌉) ∧
    (∃ n, floorCellsR fl b c p = .ok n ∧ (n : ℤ) = ⌊fl (fl (b - c) / p)⌋) ∧ ∃ n, ceilCellsR fl t c p = .ok n ∧ (n : ℤ) = ⌈fl (fl (t - c) / p)⌉ := by
  have nn : ∀ {x : ℚ}, 0 ≤ x → 0 ≤ fl (fl x / p) := fun hx => fl_nonneg (div_nonneg (fl_nonneg hx) hp.le)
  have mm : ∀ {x y : ℚ}, x ≤ y → fl (fl x / p) ≤ fl (fl y / p) := fun hx => fl_mono (div_le_div_of_nonneg_right (fl_mono hx) hp.le)
  have size : ∀ {z : ℤ}, 0 ≤ z → z < 2 ^ 64 → ∃ n, toSize z = .ok n ∧ (n : ℤ) = z := fun {z} h0 h => by
    obtain ⟨n, rfl⟩ := Int.eq_ofNat_of_zero_le h0
    exact ⟨n, toSize_eq_ok.2 ⟨rfl, h⟩, rfl⟩
  unfold floorCellsR ceilCellsR
  rw [if_neg hp.ne', if_neg hp.ne', if_neg hp.ne', if_neg hp.ne']
  refine ⟨size (Int.floor_nonneg.2 (nn (by linarith))) ?_, size (Int.ceil_nonneg (nn (by linarith))) ?_, size (Int.floor_nonneg.2 (nn (by linarith))) ?_,
    size (Int.ceil_nonneg (nn (by linarith))) hN⟩
  · exact lt_of_le_of_lt ((Int.floor_le_ceil _).trans (Int.ceil_le_ceil (mm (by linarith)))) hN
  · exact lt_of_le_of_lt (Int.ceil_le_ceil (mm (by linarith))) hN
  · exact lt_of_le_of_lt ((Int.floor_le_ceil _).trans (Int.ceil_le_ceil (mm (by linarith)))) hN

theorem rasterizeR_cases {C : Cgal ℚ} (hbd : ∀ q r, ∀ s ∈ C.inter q r, s.outer ≠ []) (lr : Bool) {B : Box2 ℚ} {f : FacePrint ℚ} (hf : DoubleFace C B f)
    {p : ℚ} (hp : 0 < p) (h1 : ⌈fl (fl (B.ymax - B.ymin) / p)⌉ < 2 ^ 64) (h2 : ⌈fl (fl (B.xmax - B.xmin) / p)⌉ < 2 ^ 64) (H W : Nat)
    (t : List ℚ × List Int) (hl : t.1.length = t.2.length) :
    (∃ t', f.rasterizeR C fl lr B.xmin B.ymax H W p t = .ok t' ∧ t'.1.length = t.1.length ∧ t'.2.length = t.2.length) ∨
      f.rasterizeR C fl lr B.xmin B.ymax H W p t = .thrown .outOfRange ∨ f.rasterizeR C fl lr B.xmin B.ymax H W p t = .thrown .runtimeError := by
  unfold rasterizeR
  split
  · exact Or.inl ⟨t, rfl, rfl, rfl⟩
  · obtain ⟨b, hb, hpr, hsub⟩ := polyBox_sub hf.1 fun v hv => (hf.2.2 v hv).1
    have hb' : f.bbox = some b := hb
    rw [hb']
    dsimp only
    obtain ⟨s1, s2, s3, s4⟩ := hsub
    obtain ⟨⟨i0, e1, _⟩, ⟨h, e4, _⟩, _, _⟩ := cellsR_ok s4 hpr.2 s3 hp h1
    have : ⌈fl (fl (b.xmax - B.xmin) / p)⌉ < 2 ^ 64 :=
      lt_of_le_of_lt (Int.ceil_le_ceil (fl_mono (div_le_div_of_nonneg_right (fl_mono (by linarith)) hp.le))) h2
    obtain ⟨_, ⟨w, e3, _⟩, ⟨j0, e2, _⟩, _⟩ := cellsR_ok (le_refl b.xmax) hpr.1 s1 hp this
    rw [e1, Out.ok_bind, e2, Out.ok_bind, e3, Out.ok_bind, e4, Out.ok_bind]
    split
    · exact Or.inr (Or.inr rfl)
    · rcases loopR_cases fl lr hf.2.1 hbd b p i0 j0 w W (List.range (w * h)) t hl with h | h
      · exact Or.inl h
      · exact Or.inr (Or.inl h)

/-- C51, the other part that holds for all doubles: a footprint with faces in its box is rasterised or an exception leaves the constructor; memory is not touched outside the image and nothing is
undefined. -/
theorem C51_safe_partial (C : Cgal ℚ) (hbd : ∀ q r, ∀ s ∈ C.inter q r, s.outer ≠ []) (lr : Bool) (fp : FootPrint ℚ) (B : Box2 ℚ) (hB : fp.brick.bbox = some B)
    (hpr : ProperBox B) (p : ℚ) (hp : 0 < p) (hf : ∀ f ∈ fp.brick.faces, DoubleFace C B f) (h1 : ⌈fl (fl (B.ymax - B.ymin) / p)⌉ < 2 ^ 64)
    (h2 : ⌈fl (fl (B.xmax - B.xmin) / p)⌉ < 2 ^ 64) :
    (∃ r, Raster.ofFootPrintR C fl lr fp p = .ok r ∧ (r.height : ℤ) = ⌈fl (fl (B.ymax - B.ymin) / p)⌉ ∧ (r.width : ℤ) = ⌈fl (fl (B.xmax - B.xmin) / p)⌉ ∧
      r.image.length = r.height * r.width ∧ r.hits.length = r.height * r.width) ∨
    Raster.ofFootPrintR C fl lr fp p = .thrown .outOfRange ∨ Raster.ofFootPrintR C fl lr fp p = .thrown .runtimeError := by
  obtain ⟨_, _, _, ⟨H, e1, k1⟩⟩ := cellsR_ok (le_refl B.ymax) (le_refl B.ymax) hpr.2 hp h1
  obtain ⟨_, _, _, ⟨W, e2, k2⟩⟩ := cellsR_ok (le_refl B.xmax) (le_refl B.xmax) hpr.1 hp h2
  have key : ∀ (fs : List (FacePrint ℚ)), (∀ f ∈ fs, DoubleFace C B f) → ∀ t : List ℚ × List Int, t.1.length = t.2.length →
      (∃ t', Raster.paintR C fl lr B.xmin B.ymax H W p fs t = .ok t' ∧ t'.1.length = t.1.length ∧ t'.2.length = t.2.length) ∨
      Raster.paintR C fl lr B.xmin B.ymax H W p fs t = .thrown .outOfRange ∨ Raster.paintR C fl lr B.xmin B.ymax H W p fs t = .thrown .runtimeError := by
    intro fs
    induction fs with
    | nil => intro _ t _; exact Or.inl ⟨t, rfl, rfl, rfl⟩
    | cons f fs ih =>
      intro hfs t hl
      unfold Raster.paintR
      rcases rasterizeR_cases hbd lr (hfs f List.mem_cons_self) hp h1 h2 H W t hl with ⟨t', a1, a2, a3⟩ | a | a
      · rw [a1, Out.ok_bind]
        rcases ih (fun g hg => hfs g (List.mem_cons_of_mem _ hg)) t' (by rw [a2, a3, hl]) with ⟨t'', c1, c2, c3⟩ | c | c
        · exact Or.inl ⟨t'', c1, c2.trans a2, c3.trans a3⟩
        · exact Or.inr (Or.inl c)
        · exact Or.inr (Or.inr c)
      · rw [a]; exact Or.inr (Or.inl rfl)
      · rw [a]; exact Or.inr (Or.inr rfl)
  unfold Raster.ofFootPrintR
  rw [hB]
  dsimp only
  rw [e1, Out.ok_bind, e2, Out.ok_bind]
  rcases key fp.brick.faces hf (List.replicate (H * W) 0, List.replicate (H * W) 0) (by simp) with ⟨t, a1, a2, a3⟩ | a | a
  · left
    rw [List.length_replicate] at a2 a3
    obtain ⟨img, c1, c2, _⟩ := offsetLoop_ok (fp.ref.z + 0) t.2 (List.range (H * W)) t.1 List.nodup_range fun k hk => by
      rw [a2, a3]; exact ⟨List.mem_range.1 hk, List.mem_range.1 hk⟩
    refine ⟨⟨fp.name, ⟨fl (fp.ref.x + B.xmin), fl (fp.ref.y + B.ymax), fp.ref.z + 0⟩, fp.epsg, H, W, p, img, t.2, true⟩, ?_, k1, k2, by rw [c2, a2], a3⟩
    rw [a1, Out.ok_bind]
    unfold Raster.verticalOffset
    rw [if_neg (by simp)]
    dsimp only
    rw [c1, Out.ok_bind]
  · rw [a]; exact Or.inr (Or.inl rfl)
  · rw [a]; exact Or.inr (Or.inr rfl)

theorem double_bits {q : ℚ} (h : IsDouble q) : Bits q := by
  obtain ⟨m, e, h1, h2, _, h3⟩ := h
  exact ⟨m, e, h1, h2, h3⟩

/-- C51 in doubles: a face in the box is never more than one row below nor more than one column right of an image with at most 2^49 rows and columns. `i0`, `j0`, `w`, `h` are the
numbers `rasterize` computes from the box `b` of the face. -/
theorem C51_one_off (C : Cgal ℚ) (B b : Box2 ℚ) (hB : DoubleBox B) (f : FacePrint ℚ) (hf : DoubleFace C B f) (hb : f.bbox = some b) (p : ℚ) (hp : 0 < p)
    (H W i0 j0 w h : Nat) (eH : ceilCellsR fl B.ymax B.ymin p = .ok H) (eW : ceilCellsR fl B.xmax B.xmin p = .ok W)
    (e1 : floorCellsR fl B.ymax b.ymax p = .ok i0) (e2 : floorCellsR fl b.xmin B.xmin p = .ok j0) (e3 : ceilCellsR fl b.xmax b.xmin p = .ok w)
    (e4 : ceilCellsR fl b.ymax b.ymin p = .ok h) (hH : H ≤ 2 ^ 49) (hW : W ≤ 2 ^ 49) : i0 + h ≤ H + 1 ∧ j0 + w ≤ W + 1 := by
  obtain ⟨b', hb', hpr, s1, s2, s3, s4⟩ := polyBox_sub hf.1 fun v hv => (hf.2.2 v hv).1
  rw [show polyBox f.border.outer = some b from hb] at hb'
  cases hb'
  obtain ⟨d1, d2, d3, d4⟩ := polyBox_from (P := IsDouble) _ (fun v hv => (hf.2.2 v hv).2) b hb
  obtain ⟨B1, B2, B3, B4⟩ := hB
  unfold floorCellsR at e1 e2
  unfold ceilCellsR at e3 e4 eH eW
  rw [if_neg hp.ne', toSize_eq_ok] at e1 e2 e3 e4 eH eW
  have up : ∀ {x : ℚ} {N : Nat}, ⌈x⌉ = (N : ℤ) → N ≤ 2 ^ 49 → x ≤ 2 ^ 49 := fun {x N} hx hN => by
    have := Int.le_ceil x
    rw [hx] at this
    have hN' : ((N : ℤ) : ℚ) ≤ 2 ^ 49 := by exact_mod_cast hN
    exact this.trans hN'
  have k1 := one_off (double_bits B4) (double_bits d4) (double_bits d2) (double_bits B2) s4 hpr.2 s3 hp (up eH.1 hH)
  have k2 := one_off (double_bits B1).neg (double_bits d1).neg (double_bits d3).neg (double_bits B3).neg (neg_le_neg s1) (neg_le_neg hpr.1) (neg_le_neg s2) hp (by
    rw [show -B.xmin - -B.xmax = B.xmax - B.xmin by ring]; exact up eW.1 hW)
  rw [show -B.xmin - -b.xmin = b.xmin - B.xmin by ring, show -b.xmin - -b.xmax = b.xmax - b.xmin by ring,
    show -B.xmin - -B.xmax = B.xmax - B.xmin by ring] at k2
  rw [e1.1, e4.1, eH.1] at k1
  rw [e2.1, e3.1, eW.1] at k2
  constructor
  · exact_mod_cast k1
  · exact_mod_cast k2

/-- C51: the hypotheses are met by the ledge, which has one column too many. -/
example : DoubleFace rectCgal ⟨0, 0, tenths 9, tenths 3⟩ (slab 2 (tenths 3) 0 (tenths 9) (tenths 3) 7) ∧
    (slab 2 (tenths 3) 0 (tenths 9) (tenths 3) 7).bbox = some ⟨tenths 3, 0, tenths 9, tenths 3⟩ ∧
    ceilCellsR fl (tenths 9) 0 (tenths 3) = .ok 3 ∧ floorCellsR fl (tenths 3) 0 (tenths 3) = .ok 1 ∧ ceilCellsR fl (tenths 9) (tenths 3) (tenths 3) = .ok 3 := by
  have e3 := tenths_3
  have e9 := tenths_9
  have c0 : (0 : ℚ) ≤ tenths 3 := by rw [e3]; norm_num
  have c1 : tenths 3 ≤ tenths 9 := by rw [e3, e9]; norm_num
  exact ⟨slab_double ⟨double_3, double_0, double_9, double_3⟩ ⟨c0, c1, le_refl _⟩ ⟨le_refl _, c0, le_refl _⟩, by decide +kernel, ledge_cells⟩

end City.Props
