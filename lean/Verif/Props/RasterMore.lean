import Verif.Props.RasterAccess
/-!
More about C51 and C52: faces that stick out of the image, the overflow of the hit counts and the order of evaluation.
-/
set_option linter.unusedSectionVars false
namespace City.Props
open City City.Spec City.FacePrint

/-- C51: a face that sticks out of the image on one side only is not refused: what is beyond the right side is painted on the left, one row below.
Here an image of two by two pixels and a face that covers the second and a third column of the first row. -/
theorem C51_wrapped : (slab 1 1 1 3 2 7).rasterize rectCgal true 0 2 2 2 1 ([0, 0, 0, 0], [0, 0, 0, 0]) =
    .ok ([0, 7, 7, 0], [0, 1, 1, 0]) := by decide +kernel

/-- C51: only a face that sticks out below and to the right is refused. -/
theorem C51_refuses {K : Type} [Field K] [LinearOrder K] [IsStrictOrderedRing K] [FloorRing K] (C : Cgal K) (f : FacePrint K) (left top p : K) (H W : Nat)
    (s s' : List K × List Int) (b : Box2 K) (hf : f.isDegenerate C = false) (hb : f.bbox = some b)
    (h : f.rasterize C true left top H W p s = .ok s') :
    ⌊(top - b.ymax) / p⌋ + ⌈(b.ymax - b.ymin) / p⌉ ≤ H ∨ ⌊(b.xmin - left) / p⌋ + ⌈(b.xmax - b.xmin) / p⌉ ≤ W := by
  unfold rasterize at h
  rw [if_neg (by simp [hf]), hb] at h
  dsimp only at h
  obtain ⟨i0, h1, h⟩ := Out.bind_eq_ok.1 h
  obtain ⟨j0, h2, h⟩ := Out.bind_eq_ok.1 h
  obtain ⟨w, h3, h⟩ := Out.bind_eq_ok.1 h
  obtain ⟨h', h4, h⟩ := Out.bind_eq_ok.1 h
  have k1 := (floorCells_eq_ok.1 h1).2.1
  have k2 := (floorCells_eq_ok.1 h2).2.1
  have k3 := (ceilCells_eq_ok.1 h3).2.1
  have k4 := (ceilCells_eq_ok.1 h4).2.1
  rw [k1, k2, k3, k4]
  split at h
  · cases h
  · rename_i hn
    omega

section
variable {K : Type} [Field K] [LinearOrder K] [IsStrictOrderedRing K] [FloorRing K] {C : Cgal K}

theorem paint_append (lr : Bool) (left top p : K) (H W : Nat) (gs fs : List (FacePrint K)) (s : List K × List Int) :
    Raster.paint C lr left top H W p (gs ++ fs) s = (Raster.paint C lr left top H W p gs s >>= fun s' => Raster.paint C lr left top H W p fs s') := by
  induction gs generalizing s with
  | nil => rfl
  | cons g gs ih =>
    rw [List.cons_append, Raster.paint, Raster.paint, Out.bind_assoc']
    congr 1
    funext s'
    exact ih s'

/-- C52: the hit count is a 16 bit number: a pixel seen by 32768 faces has a negative count and a value on the wrong side of the reference height. -/
theorem C52_overflow (fp : FootPrint K) (B : Box2 K) (hB : fp.brick.bbox = some B) (p : K) (hp : 0 < p)
    (hf : ∀ f ∈ fp.brick.faces, Paintable C p f ∧ ∀ v ∈ f.border.outer, InBox2 B v) (hpr : ProperBox B)
    (hs : ⌈(B.ymax - B.ymin) / p⌉ < 2 ^ 64 ∧ ⌈(B.xmax - B.xmin) / p⌉ < 2 ^ 64) (gs : List (FacePrint K)) (f : FacePrint K)
    (hsplit : fp.brick.faces = gs ++ [f]) :
    ∃ r, Raster.ofFootPrint C true fp p = .ok r ∧ (r.height : ℤ) = ⌈(B.ymax - B.ymin) / p⌉ ∧ (r.width : ℤ) = ⌈(B.xmax - B.xmin) / p⌉ ∧
      ∀ i < r.height, ∀ j < r.width, ∀ zs z, gs.filterMap (reported C B.xmin B.ymax p i j) = zs → reported C B.xmin B.ymax p i j f = some z →
        zs.length = 32767 → r.hit i j = .ok (-32768) ∧ r.at' i j = .ok (fp.ref.z - mean (zs ++ [z])) := by
  have n1 : 0 ≤ ⌈(B.ymax - B.ymin) / p⌉ := Int.ceil_nonneg (div_nonneg (by linarith [hpr.2]) hp.le)
  have n2 : 0 ≤ ⌈(B.xmax - B.xmin) / p⌉ := Int.ceil_nonneg (div_nonneg (by linarith [hpr.1]) hp.le)
  obtain ⟨H, hH⟩ := Int.eq_ofNat_of_zero_le n1
  obtain ⟨W, hW⟩ := Int.eq_ofNat_of_zero_le n2
  have cH : ceilCells (B.ymax - B.ymin) p = .ok H := ceilCells_eq_ok.2 ⟨hp.ne', hH, hs.1⟩
  have cW : ceilCells (B.xmax - B.xmin) p = .ok W := ceilCells_eq_ok.2 ⟨hp.ne', hW, hs.2⟩
  obtain ⟨s, h1, h2, h3, h4⟩ := paint_ok hp cH cW gs fun g hg => hf g (by rw [hsplit]; exact List.mem_append_left _ hg)
  have hfm : f ∈ fp.brick.faces := by rw [hsplit]; simp
  have hin : f.isDegenerate C = false → ∃ b, f.bbox = some b ∧ ProperBox b ∧ SubBox b B := by
    intro hd
    obtain ⟨hpa, hv⟩ := hf f hfm
    rcases hpa with h | ⟨h, _⟩
    · rw [hd] at h; cases h
    · exact polyBox_sub h hv
  rcases rasterize_spec C f hp cH cW hin s h2 h3 with ⟨s', e1, e2, e3, e4⟩ | ⟨hd, x, y, h⟩
  · obtain ⟨img, k1, k2, k3, k4⟩ := offsetLoop_ok (fp.ref.z + 0) s'.2 (List.range (H * W)) s'.1 List.nodup_range fun k hk => by
      rw [e2, e3]; exact ⟨List.mem_range.1 hk, List.mem_range.1 hk⟩
    refine ⟨⟨fp.name, ⟨fp.ref.x + B.xmin, fp.ref.y + B.ymax, fp.ref.z + 0⟩, fp.epsg, H, W, p, img, s'.2, true⟩, ?_, hH.symm, hW.symm, ?_⟩
    · unfold Raster.ofFootPrint
      rw [hB]
      dsimp only
      rw [cH, Out.ok_bind, cW, Out.ok_bind, hsplit, paint_append, h1, Out.ok_bind, Raster.paint, e1, Out.ok_bind, Raster.paint, Out.ok_bind]
      unfold Raster.verticalOffset
      rw [if_neg (by simp)]
      dsimp only
      rw [k1, Out.ok_bind]
    · intro i hi j hj zs z hzs hz hlen
      have hi' : i < H := hi
      have hj' : j < W := hj
      subst hzs
      obtain ⟨a1, a2⟩ := h4 i hi' j hj' (by unfold seen; omega)
      obtain ⟨b1, b2⟩ := e4 i hi' j hj' _ _ a1 a2
      rw [hz] at b1 b2
      have hl : ((seen C B.xmin B.ymax p i j gs).length : Int) = 32767 := by unfold seen; omega
      have hst : step (mean (seen C B.xmin B.ymax p i j gs), ((seen C B.xmin B.ymax p i j gs).length : Int)) (some z) =
          (-mean (gs.filterMap (reported C B.xmin B.ymax p i j) ++ [z]), -32768) := by
        rw [hl]
        unfold step
        ext
        · simp only [shortSucc, if_true, mean, List.sum_append, List.sum_cons, List.sum_nil, add_zero, List.length_append, List.length_cons,
            List.length_nil, seen, hlen]
          push_cast
          field_simp
        · simp [shortSucc]
      rw [hst] at b1 b2
      have c1 := k4 (i * W + j) (List.mem_range.2 (key_lt hi' hj')) _ _ b1 b2
      have hguard : ¬ (i > H ∧ j > W) := by omega
      constructor
      · unfold Raster.hit
        rw [if_neg hguard]
        exact Out.atOr_eq_ok.2 b2
      · unfold Raster.at'
        rw [if_neg hguard]
        refine Out.atOr_eq_ok.2 (c1.trans ?_)
        rw [if_neg (by norm_num), add_zero]
        congr 1
        ring
  · exfalso
    rcases (hf f hfm).1 with h' | ⟨_, h', hq⟩
    · rw [hd] at h'; cases h'
    · obtain ⟨z, hz⟩ := pixelHeight_ok (x := x) (y := y) (p := p) h' (hq x y)
      rcases h with ⟨e, h, _⟩ | ⟨h, _⟩ <;> rw [hz] at h <;> cases h
end

/-- A footprint with 32768 copies of one face: the roof at height 3 above a reference at 50 is painted at 47. -/
theorem C52_overflow_refuted : ∃ fp : FootPrint ℚ, (∀ f ∈ fp.brick.faces, f = slab 1 0 0 1 1 3) ∧ fp.ref.z = 50 ∧
    ∃ r, Raster.ofFootPrint rectCgal true fp 1 = .ok r ∧ r.hit 0 0 = .ok (-32768) ∧ r.at' 0 0 = .ok 47 := by
  refine ⟨⟨[], ⟨0, 0, 50⟩, 2154, ⟨some ⟨0, 0, 1, 1⟩, List.replicate 32767 (slab 1 0 0 1 1 3) ++ [slab 1 0 0 1 1 3]⟩⟩, ?_, rfl, ?_⟩
  · intro f hf
    rcases List.mem_append.1 hf with h | h
    · exact List.eq_of_mem_replicate h
    · simpa using h
  have hall : ∀ f ∈ List.replicate 32767 (slab 1 0 0 1 1 3) ++ [slab 1 0 0 1 1 3], f = slab 1 0 0 1 1 3 := by
    intro f hf
    rcases List.mem_append.1 hf with h | h
    · exact List.eq_of_mem_replicate h
    · simpa using h
  have hrep : reported rectCgal (0 : ℚ) 1 1 0 0 (slab 1 0 0 1 1 3) = some 3 := by decide +kernel
  obtain ⟨r, h1, h2, h3, h4⟩ := C52_overflow (C := rectCgal)
    ⟨[], ⟨0, 0, 50⟩, 2154, ⟨some ⟨0, 0, 1, 1⟩, List.replicate 32767 (slab 1 0 0 1 1 3) ++ [slab 1 0 0 1 1 3]⟩⟩ ⟨0, 0, 1, 1⟩ rfl 1
    (by norm_num) (by
      intro f hf
      rw [hall f hf]
      refine ⟨Or.inr ⟨by simp [slab, rect], eps_le_one, fun x y q hq => rect_bounded _ _ q hq⟩, ?_⟩
      apply slab_in
      norm_num) ⟨by norm_num, by norm_num⟩ ⟨by norm_num, by norm_num⟩ _ _ rfl
  have hr1 : r.height = 1 := by
    have : ⌈((1 : ℚ) - 0) / 1⌉ = 1 := by norm_num
    have h2' : (r.height : ℤ) = ⌈((1 : ℚ) - 0) / 1⌉ := h2
    rw [this] at h2'
    exact_mod_cast h2'
  have hr2 : r.width = 1 := by
    have : ⌈((1 : ℚ) - 0) / 1⌉ = 1 := by norm_num
    have h3' : (r.width : ℤ) = ⌈((1 : ℚ) - 0) / 1⌉ := h3
    rw [this] at h3'
    exact_mod_cast h3'
  have hfm : ∀ n, (List.replicate n (slab 1 0 0 1 1 3)).filterMap (reported rectCgal (0 : ℚ) 1 1 0 0) = List.replicate n 3 := by
    intro n
    induction n with
    | zero => rfl
    | succ n ih => rw [List.replicate_succ, List.filterMap_cons, hrep]; simp only [ih]; rfl
  obtain ⟨g1, g2⟩ := h4 0 (by omega) 0 (by omega) (List.replicate 32767 3) 3 (hfm _) hrep List.length_replicate
  refine ⟨r, h1, g1, ?_⟩
  rw [g2]
  congr 1
  show (50 : ℚ) - mean (List.replicate 32767 3 ++ [3]) = 47
  simp only [mean, List.sum_append, List.sum_replicate, List.length_append, List.length_replicate, List.sum_cons, List.sum_nil, List.length_cons,
    List.length_nil]
  norm_num

/-- C52: the expression reads the hit count and increments it without an order between the two. When the right operand is evaluated first, a pixel
seen by faces of heights 3 and 7 gets 3 + 7/2 and not the mean. -/
theorem C52_order : Raster.ofFootPrint rectCgal false house 2 =
    .ok ⟨[], ⟨100, 202, 50⟩, 2154, 1, 2, 2, [50 + (3 + 7 / 2), 0], [2, 0], true⟩ ∧
    Raster.ofFootPrint rectCgal true house 2 = .ok ⟨[], ⟨100, 202, 50⟩, 2154, 1, 2, 2, [50 + (3 + 7) / 2, 0], [2, 0], true⟩ := by
  constructor <;> decide +kernel

end City.Props
