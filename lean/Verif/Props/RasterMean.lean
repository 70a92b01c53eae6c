import Verif.Lemmas.RasterMean
import Verif.Props.RasterDbl
/-
C98: the values of the pixels in doubles.
-/
namespace City.Props
open City City.Spec FacePrint
set_option linter.unusedSectionVars false

/-- The model with rounded heights is, without rounding of the heights, the model of C51 and C52. -/
theorem C98_unrounded {K : Type} [Field K] [LinearOrder K] [IsStrictOrderedRing K] [FloorRing K] (C : Cgal K) (rd : K → K) (lr : Bool) (fp : FootPrint K) (p : K) :
    Raster.ofFootPrintD C rd (fun x => x) (fun f q => centroid C q >>= fun c => planeHeightD C (fun x => x) f c) lr fp p = Raster.ofFootPrintR C rd lr fp p := by
  have h0 : ∀ (f : FacePrint K) (c : V2 K), planeHeightD C (fun x => x) f c = planeHeightInexact C f c := by
    intro f c
    unfold planeHeightD planeHeightInexact
    rw [neg_one_mul]
  have h1 : ∀ (f : FacePrint K) (n : K) (qs : List (Pwh K)) (s : K),
      partsD (fun x => x) (fun q => centroid C q >>= fun c => planeHeightD C (fun x => x) f c) n qs s = partHeights C f n qs s := by
    intro f n qs
    induction qs with
    | nil => intro s; rfl
    | cons q qs ih =>
      intro s
      unfold partsD partHeights
      cases centroid C q with
      | ok c =>
        rw [Out.ok_bind, Out.ok_bind, h0]
        congr 1
        funext z
        exact ih _
      | thrown e => rfl
      | ub => rfl
  have h2 : ∀ (f : FacePrint K) (q : Pwh K), heightD C (fun x => x) (fun q => centroid C q >>= fun c => planeHeightD C (fun x => x) f c) f q = heightIn C f q := by
    intro f q
    unfold heightD heightIn
    rw [h1]
  have h3 : ∀ (f : FacePrint K) (b : Box2 K) (i0 j0 w W : Nat) (ns : List Nat) (s : List K × List Int),
      rasterLoopD C rd (fun x => x) (fun f q => centroid C q >>= fun c => planeHeightD C (fun x => x) f c) lr f b p i0 j0 w W ns s =
        rasterLoopR C rd lr f b p i0 j0 w W ns s := by
    intro f b i0 j0 w W ns
    induction ns with
    | nil => intro s; rfl
    | cons n ns ih =>
      intro s
      unfold rasterLoopD rasterLoopR
      rw [h2]
      congr 1
      funext z
      cases z with
      | none => exact ih s
      | some z =>
        show bump lr _ z s >>= _ = _
        congr 1
        funext s'
        exact ih s'
  have h4 : ∀ (left top : K) (H W : Nat) (fs : List (FacePrint K)) (s : List K × List Int),
      Raster.paintD C rd (fun x => x) (fun f q => centroid C q >>= fun c => planeHeightD C (fun x => x) f c) lr left top H W p fs s =
        Raster.paintR C rd lr left top H W p fs s := by
    intro left top H W fs
    induction fs with
    | nil => intro s; rfl
    | cons f fs ih =>
      intro s
      unfold Raster.paintD Raster.paintR
      have : f.rasterizeD C rd (fun x => x) (fun f q => centroid C q >>= fun c => planeHeightD C (fun x => x) f c) lr left top H W p s =
          f.rasterizeR C rd lr left top H W p s := by
        unfold rasterizeD rasterizeR
        simp only [h3]
        rfl
      rw [this]
      congr 1
      funext s'
      exact ih s'
  have h5 : ∀ (z : K) (hits : List Int) (ks : List Nat) (img : List K), Raster.offsetLoopD (fun x => x) z hits ks img = Raster.offsetLoop z hits ks img := by
    intro z hits ks
    induction ks with
    | nil => intro img; rfl
    | cons k ks ih =>
      intro img
      unfold Raster.offsetLoopD Raster.offsetLoop
      congr 1
      funext v
      congr 1
      funext n
      exact ih _
  unfold Raster.ofFootPrintD Raster.ofFootPrintR
  cases fp.brick.bbox with
  | none => rfl
  | some b =>
    simp only [h4, h5]
    rfl

theorem fl_rounds : Rounds (K := ℚ) fl (2 ^ (-53 : ℤ)) (2 ^ (-1075 : ℤ)) := by
  intro x
  have := fl_abs_rel x
  rwa [Rat.cast_id] at this

/-- C98: the value of every pixel is the mean of the heights that were given to it, plus the height of the reference point, up to a relative error of one in 2^51 for every
height and for the addition (and the loss of numbers below 2^-1022); a pixel that was given no height is 0. The hit count is the number of the heights. The heights are those of
`get_height`, in doubles, for the faces of the print. At most 32767 heights for one pixel: beyond, the counter overflows (C52). -/
theorem C98_pixel_partial (C : Cgal ℚ) (rd : ℚ → ℚ) (ph : FacePrint ℚ → Pwh ℚ → Out ℚ) (fp : FootPrint ℚ) (p : ℚ) (r : Raster ℚ)
    (h : Raster.ofFootPrintD C rd fl ph true fp p = .ok r) :
    ∃ H : List (Nat × ℚ), (∀ e ∈ H, ∃ f ∈ fp.brick.faces, ∃ q, heightD C fl (ph f) f q = .ok (some e.2)) ∧
      ∀ k < r.height * r.width, (heightsOn k H).length ≤ 32767 → ∃ v, r.image[k]? = some v ∧ r.hits[k]? = some ((heightsOn k H).length : ℤ) ∧
        (heightsOn k H = [] → v = 0) ∧
        (heightsOn k H ≠ [] → ∀ M, (∀ z ∈ heightsOn k H, |z| ≤ M) →
          |v - (mean (heightsOn k H) + fp.ref.z)| ≤ ((heightsOn k H).length + 1) * 2 ^ (-51 : ℤ) * (M + |fp.ref.z|) + ((heightsOn k H).length + 6) * 2 ^ (-1074 : ℤ)) := by
  obtain ⟨H, h1, h2⟩ := ofFootPrintD_spec h
  refine ⟨H, h1, fun k hk hl => ?_⟩
  obtain ⟨q1, q2⟩ := h2 k hk hl
  refine ⟨_, q2, q1, fun h0 => ?_, fun h0 M hM => ?_⟩
  · rw [h0]
    simp [valueD, fl_zero]
  · rw [if_neg h0]
    have hu : (0 : ℚ) ≤ 2 ^ (-53 : ℤ) := by positivity
    have hu1 : (2 : ℚ) ^ (-53 : ℤ) * (3 * 32767) * 5 ≤ 1 := by norm_num
    have he : (0 : ℚ) ≤ 2 ^ (-1075 : ℤ) := (two_zpow_pos _).le
    have k1 := final_err fl_rounds hu hu1 he (z0 := fp.ref.z) (zs := (heightsOn k H).reverse) (M := M) (by simpa using h0) (by simpa using hl) (by simpa using hM)
    have e1 : mean (heightsOn k H).reverse = mean (heightsOn k H) := by simp [mean]
    have eη : (2 : ℚ) ^ (-1074 : ℤ) = 2 * 2 ^ (-1075 : ℤ) := by
      rw [show (-1074 : ℤ) = 1 + -1075 by norm_num, zpow_add₀ (by norm_num : (2 : ℚ) ≠ 0), zpow_one]
    have eu : (2 : ℚ) ^ (-51 : ℤ) = 4 * 2 ^ (-53 : ℤ) := by norm_num
    rw [e1, List.length_reverse] at k1
    rw [eη, eu]
    exact k1

/-- C98: the height of a face in a pixel, `get_height`: the mean of the heights of the plane of the face over the parts of the face in the pixel, up to a relative error of one in 2^51 for every part. -/
theorem C98_height (C : Cgal ℚ) (ph : Pwh ℚ → Out ℚ) (f : FacePrint ℚ) (q : Pwh ℚ) (z : ℚ) (h : heightD C fl ph f q = .ok (some z))
    (hl : (C.inter q f.border).length ≤ 2 ^ 30) :
    ∃ zs : List ℚ, zs ≠ [] ∧ (C.inter q f.border).map ph = zs.map Out.ok ∧
      ∀ M, (∀ x ∈ zs, |x| ≤ M) → |z - mean zs| ≤ zs.length * 2 ^ (-51 : ℤ) * M + zs.length * 2 ^ (-1073 : ℤ) := by
  unfold heightD at h
  split at h
  · cases h
  · rename_i hne
    obtain ⟨r, h1, h2⟩ := Out.bind_eq_ok.1 h
    cases h2
    obtain ⟨zs, k1, k2⟩ := partsD_eq _ h1
    have el : (C.inter q f.border).length = zs.length := by
      have := congrArg List.length k1
      simpa using this
    have h0 : zs ≠ [] := by
      intro hz
      rw [hz, List.length_nil, List.length_eq_zero_iff] at el
      rw [el] at hne
      exact hne rfl
    refine ⟨zs, h0, k1, fun M hM => ?_⟩
    obtain ⟨x, hx⟩ := List.exists_mem_of_ne_nil zs h0
    have hM0 : 0 ≤ M := (abs_nonneg x).trans (hM x hx)
    have hu : (0 : ℚ) ≤ 2 ^ (-53 : ℤ) := by positivity
    have hu1 : (2 : ℚ) ^ (-53 : ℤ) ≤ 1 / 4 := by norm_num
    have he : (0 : ℚ) ≤ 2 ^ (-1075 : ℤ) := (two_zpow_pos _).le
    have k3 := parts_err fl_rounds hu hu1 he hM0 (N := zs.length) zs 0 0 0 (by omega) hM (by simp) (by simp)
    rw [el] at k2 hl
    rw [← k2, zero_add, zero_add] at k3
    have k4 : ((1 + (2 : ℚ) ^ (-53 : ℤ)) ^ 2) ^ zs.length ≤ 1 + 5 / 2 * (zs.length * 2 ^ (-53 : ℤ)) := by
      have := pow_le_lin (N := 2 * 2 ^ 30) hu (by norm_num) (2 * zs.length) (by omega)
      rw [← pow_mul]
      push_cast at this
      linarith
    have hn : (0 : ℚ) ≤ zs.length := Nat.cast_nonneg _
    have nu : (zs.length : ℚ) * 2 ^ (-53 : ℤ) ≤ 1 / 100 := by
      have a1 : (zs.length : ℚ) ≤ 2 ^ 30 := by exact_mod_cast hl
      have a2 : (zs.length : ℚ) * 2 ^ (-53 : ℤ) ≤ 2 ^ 30 * 2 ^ (-53 : ℤ) := mul_le_mul_of_nonneg_right a1 hu
      exact a2.trans (by norm_num)
    have eη : (2 : ℚ) ^ (-1073 : ℤ) = 4 * 2 ^ (-1075 : ℤ) := by
      rw [show (-1073 : ℤ) = 2 + -1075 by norm_num, zpow_add₀ (by norm_num : (2 : ℚ) ≠ 0)]
      norm_num
    have eu : (2 : ℚ) ^ (-51 : ℤ) = 4 * 2 ^ (-53 : ℤ) := by norm_num
    rw [eη, eu]
    refine k3.trans ?_
    generalize (2 : ℚ) ^ (-1075 : ℤ) = η at he
    generalize ((1 + (2 : ℚ) ^ (-53 : ℤ)) ^ 2) ^ zs.length = G at k4
    generalize (2 : ℚ) ^ (-53 : ℤ) = u at hu nu k4
    generalize (zs.length : ℚ) = n at hn nu k4
    have t1 : M * (G - 1) ≤ M * (5 / 2 * (n * u)) := mul_le_mul_of_nonneg_left (by linarith) hM0
    have t2 : 3 * η * (n * G) ≤ 3 * η * (n * (4 / 3)) := by
      apply mul_le_mul_of_nonneg_left _ (by linarith)
      apply mul_le_mul_of_nonneg_left _ hn
      linarith
    have t3 : 0 ≤ M * (n * u) := by positivity
    linarith

/-- C98: the height of a plane at a point, in doubles: wrong by at most one in 2^50 of the sum of the three terms of its numerator divided by |c|; heights are refused for |c| below the machine
epsilon. `d`, `a`, `b`, `c` are the coefficients as doubles. -/
theorem C98_plane (C : Cgal ℚ) (f : FacePrint ℚ) (p : V2 ℚ) :
    (|C.toDouble f.plane.c| < 2 ^ (-52 : ℤ) → planeHeightD C fl f p = .thrown .overflowError) ∧
    (2 ^ (-52 : ℤ) ≤ |C.toDouble f.plane.c| → ∃ z, planeHeightD C fl f p = .ok z ∧
      |z - (-C.toDouble f.plane.d - C.toDouble f.plane.a * p.x - C.toDouble f.plane.b * p.y) / C.toDouble f.plane.c| ≤
        2 ^ (-50 : ℤ) * ((|C.toDouble f.plane.d| + |C.toDouble f.plane.a * p.x| + |C.toDouble f.plane.b * p.y|) / |C.toDouble f.plane.c|) + 2 ^ (-1020 : ℤ)) := by
  have ee : (eps : ℚ) = 2 ^ (-52 : ℤ) := by unfold eps; norm_num
  unfold planeHeightD
  rw [ee]
  refine ⟨fun h => by rw [if_pos h], fun h => ⟨_, by rw [if_neg (not_lt.2 h)], ?_⟩⟩
  generalize C.toDouble f.plane.c = c at h
  generalize C.toDouble f.plane.d = d
  generalize C.toDouble f.plane.a * p.x = x
  generalize C.toDouble f.plane.b * p.y = y
  have hu : (0 : ℚ) ≤ 2 ^ (-53 : ℤ) := by positivity
  have hu1 : (2 : ℚ) ^ (-53 : ℤ) ≤ 1 / 100 := by norm_num
  have he : (0 : ℚ) ≤ 2 ^ (-1075 : ℤ) := (two_zpow_pos _).le
  have hc : 0 < |c| := lt_of_lt_of_le (by positivity) h
  have eu : (2 : ℚ) ^ (-50 : ℤ) = 8 * 2 ^ (-53 : ℤ) := by norm_num
  have eη : (2 : ℚ) ^ (-1020 : ℤ) = 8 * (2 ^ (-1075 : ℤ) / 2 ^ (-52 : ℤ)) := by
    rw [← zpow_sub₀ (by norm_num : (2 : ℚ) ≠ 0), show (-1020 : ℤ) = 3 + (-1075 - -52) by norm_num, zpow_add₀ (by norm_num : (2 : ℚ) ≠ 0)]
    norm_num
  have k : (2 : ℚ) ^ (-1075 : ℤ) / |c| ≤ 2 ^ (-1075 : ℤ) / 2 ^ (-52 : ℤ) := div_le_div_of_nonneg_left he (by positivity) h
  have k' : (2 : ℚ) ^ (-1075 : ℤ) ≤ 2 ^ (-1075 : ℤ) / 2 ^ (-52 : ℤ) := by
    rw [le_div_iff₀ (by positivity)]
    exact mul_le_of_le_one_right he (by norm_num)
  rw [eu, eη]
  have R := fl_rounds
  generalize (2 : ℚ) ^ (-1075 : ℤ) / 2 ^ (-52 : ℤ) = η' at k k' ⊢
  generalize (2 : ℚ) ^ (-1075 : ℤ) = η at he k k' R
  generalize (2 : ℚ) ^ (-53 : ℤ) = u at hu hu1 R ⊢
  have hd0 := abs_nonneg d
  have hx0 := abs_nonneg x
  have hy0 := abs_nonneg y
  have a1 := R x
  have a2 : |-d - x| ≤ |d| + |x| := by
    have := abs_sub (-d) x
    rwa [abs_neg] at this
  have a3 : |-d - fl x - (-d - x)| ≤ u * |x| + η := by
    rw [show -d - fl x - (-d - x) = -(fl x - x) by ring, abs_neg]
    exact a1
  have a4 := R.from hu a3 a2
  have a5 := R y
  have a6 : |fl (-d - fl x) - fl y - (-d - x - y)| ≤ (1 + u) * (u * |x| + η) + u * (|d| + |x|) + η + (u * |y| + η) := by
    have := abs_sub (fl (-d - fl x) - (-d - x)) (fl y - y)
    rw [show fl (-d - fl x) - (-d - x) - (fl y - y) = fl (-d - fl x) - fl y - (-d - x - y) by ring] at this
    linarith
  have a7 : |-d - x - y| ≤ |d| + |x| + |y| := by
    have := abs_sub (-d - x) y
    linarith
  have a8 := R.from hu a6 a7
  generalize hT : |d| + |x| + |y| = T at *
  have a9 : |fl (fl (-d - fl x) - fl y) - (-d - x - y)| ≤ 4 * (u * T) + 6 * η := by
    refine a8.trans ?_
    have : 0 ≤ T := by linarith
    have t0 : u * |x| + u * |y| + u * |d| = u * T := by rw [← hT]; ring
    have t1 : 0 ≤ u * |d| := by positivity
    have t2 : 0 ≤ u * |x| := by positivity
    have t3 : 0 ≤ u * |y| := by positivity
    have t4 : u * (u * |x|) ≤ 1 / 100 * (u * |x|) := mul_le_mul_of_nonneg_right hu1 t2
    have t5 : u * (u * |y|) ≤ 1 / 100 * (u * |y|) := mul_le_mul_of_nonneg_right hu1 t3
    have t6 : u * (u * |d|) ≤ 1 / 100 * (u * |d|) := mul_le_mul_of_nonneg_right hu1 t1
    have t7 : u * (u * (u * |x|)) ≤ 1 / 100 * (u * (u * |x|)) := mul_le_mul_of_nonneg_right hu1 (by positivity)
    have t8 : u * η ≤ 1 / 100 * η := mul_le_mul_of_nonneg_right hu1 he
    have t9 : u * (u * η) ≤ 1 / 100 * (u * η) := mul_le_mul_of_nonneg_right hu1 (by positivity)
    nlinarith
  have b1 : |fl (fl (-d - fl x) - fl y) / c - (-d - x - y) / c| ≤ (4 * (u * T) + 6 * η) / |c| := by
    rw [← sub_div, abs_div]
    exact div_le_div_of_nonneg_right a9 hc.le
  have b2 : |(-d - x - y) / c| ≤ T / |c| := by
    rw [abs_div]
    exact div_le_div_of_nonneg_right a7 hc.le
  have b3 := R.from hu b1 b2
  refine b3.trans ?_
  have e1 : (4 * (u * T) + 6 * η) / |c| = 4 * (u * (T / |c|)) + 6 * (η / |c|) := by ring
  rw [e1]
  have hT0 : 0 ≤ T / |c| := div_nonneg (by linarith) hc.le
  have hη : 0 ≤ η / |c| := div_nonneg he hc.le
  generalize T / |c| = t at hT0
  generalize η / |c| = w at hη k
  have t1 : u * (u * t) ≤ 1 / 100 * (u * t) := mul_le_mul_of_nonneg_right hu1 (by positivity)
  have t2 : u * w ≤ 1 / 100 * w := mul_le_mul_of_nonneg_right hu1 hη
  have t3 : 0 ≤ u * t := by positivity
  nlinarith

/-! ### Flat roofs -/

theorem value_flat {h : ℚ} {m s : ℤ} (hm : |m| ≤ 2 ^ 38) (hs : -1074 ≤ s) (hh : h = m * 2 ^ s) : ∀ zs : List ℚ, zs ≠ [] → zs.length ≤ 32767 → (∀ z ∈ zs, z = h) → valueD fl zs = h
  | [], h0, _, _ => absurd rfl h0
  | z :: zs, _, hl, hz => by
    rw [List.length_cons] at hl
    have z1 : z = h := hz z (by simp)
    have e1 : valueD fl zs * (zs.length : ℚ) = ((m * zs.length : ℤ) : ℚ) * 2 ^ s := by
      by_cases h0 : zs = []
      · subst h0; simp [valueD]
      · rw [value_flat hm hs hh zs h0 (by omega) fun x hx => hz x (by simp [hx]), hh]
        push_cast
        ring
    have hb : ∀ n : ℕ, n ≤ 32767 → |m * (n : ℤ)| ≤ 2 ^ 53 := by
      intro n hn
      rw [abs_mul, Nat.abs_cast]
      have : (n : ℤ) ≤ 2 ^ 15 := by exact_mod_cast (by omega : n ≤ 2 ^ 15)
      calc |m| * (n : ℤ) ≤ 2 ^ 38 * 2 ^ 15 := mul_le_mul hm this (by positivity) (by positivity)
        _ = 2 ^ 53 := by norm_num
    show fl (fl (fl (valueD fl zs * (zs.length : ℚ)) + z) / ((zs.length : ℚ) + 1)) = h
    rw [e1, bits_grid (hb _ (by omega)) hs, z1, hh]
    have e2 : ((m * zs.length : ℤ) : ℚ) * 2 ^ s + m * 2 ^ s = ((m * (zs.length + 1 : ℕ) : ℤ) : ℚ) * 2 ^ s := by push_cast; ring
    have e3 : ((m * (zs.length + 1 : ℕ) : ℤ) : ℚ) * 2 ^ s / ((zs.length : ℚ) + 1) = (m : ℚ) * 2 ^ s := by
      have : (zs.length : ℚ) + 1 ≠ 0 := by positivity
      push_cast
      field_simp
    rw [e2, bits_grid (hb _ (by omega)) hs, e3, bits_grid (hm.trans (by norm_num)) hs]

/-- C98: flat roofs. When the planes of all the faces have one height over every part, a multiple of a power of two of at most 38 binary digits (millionths of a metre
up to 200 km), and every face meets every pixel in one part at most, every pixel that is given heights has exactly that height, plus the height of the reference point. -/
theorem C98_flat_partial (C : Cgal ℚ) (rd : ℚ → ℚ) (ph : FacePrint ℚ → Pwh ℚ → Out ℚ) (fp : FootPrint ℚ) (p : ℚ) (r : Raster ℚ) (h : ℚ) (m m0 s : ℤ) (hm : |m| ≤ 2 ^ 38)
    (hs : -1074 ≤ s) (hh : h = m * 2 ^ s) (hm0 : |m0| ≤ 2 ^ 52) (hz : fp.ref.z = m0 * 2 ^ s) (hph : ∀ f ∈ fp.brick.faces, ∀ q, ph f q = .ok h)
    (hone : ∀ f ∈ fp.brick.faces, ∀ q, (C.inter q f.border).length ≤ 1) (hr : Raster.ofFootPrintD C rd fl ph true fp p = .ok r) :
    ∃ H : List (Nat × ℚ), (∀ e ∈ H, e.2 = h) ∧ ∀ k < r.height * r.width, (heightsOn k H).length ≤ 32767 → r.hits[k]? = some ((heightsOn k H).length : ℤ) ∧
      r.image[k]? = some (if heightsOn k H = [] then 0 else h + fp.ref.z) := by
  obtain ⟨H, h1, h2⟩ := ofFootPrintD_spec hr
  have flh : fl h = h := by rw [hh]; exact bits_grid (hm.trans (by norm_num)) hs
  have all : ∀ e ∈ H, e.2 = h := by
    intro e he
    obtain ⟨f, hf, q, hq⟩ := h1 e he
    have l1 := hone f hf q
    unfold heightD at hq
    split at hq
    · cases hq
    · rename_i hne
      obtain ⟨z, k1, k2⟩ := Out.bind_eq_ok.1 hq
      cases hI : C.inter q f.border with
      | nil => rw [hI] at hne; exact absurd rfl hne
      | cons a t =>
        cases t with
        | cons b t => rw [hI] at l1; simp at l1
        | nil =>
          rw [hI] at k1
          unfold partsD at k1
          rw [hph f hf a, Out.ok_bind] at k1
          unfold partsD at k1
          simp only [List.length_singleton, Nat.cast_one, div_one, zero_add] at k1
          rw [flh, flh] at k1
          cases k1
          cases k2
          rfl
  refine ⟨H, all, fun k hk hl => ?_⟩
  obtain ⟨q1, q2⟩ := h2 k hk hl
  refine ⟨q1, q2.trans ?_⟩
  by_cases h0 : heightsOn k H = []
  · rw [h0]
    simp [valueD, fl_zero]
  · rw [if_neg h0, if_neg h0, value_flat hm hs hh _ (by simpa using h0) (by simpa using hl), hh, hz, ← add_mul, ← Int.cast_add, bits_grid ?_ hs]
    · have := abs_add_le m m0
      have : (2 : ℤ) ^ 38 ≤ 2 ^ 52 := by norm_num
      have : (2 : ℤ) ^ 53 = 2 ^ 52 + 2 ^ 52 := by norm_num
      linarith
    · intro z hz
      rw [List.mem_reverse] at hz
      unfold heightsOn at hz
      obtain ⟨e, he, rfl⟩ := List.mem_map.1 hz
      exact all e (List.mem_filter.1 he).1

/-- The full claim, for doubles: the value of a pixel over faces of one height is that height. False: `C98_refuted`. -/
def C98_full : Prop := ∀ (C : Cgal ℚ) (ph : FacePrint ℚ → Pwh ℚ → Out ℚ) (fp : FootPrint ℚ) (p h : ℚ) (r : Raster ℚ), IsDouble h → fp.ref.z = 0 → 
  (∀ f ∈ fp.brick.faces, ∀ q, ph f q = .ok h) → (∀ f ∈ fp.brick.faces, ∀ q, (C.inter q f.border).length ≤ 1) → Raster.ofFootPrintD C fl fl ph true fp p = .ok r →
  ∀ (k : Nat) (n : ℤ), r.hits[k]? = some n → n ≠ 0 → r.image[k]? = some h

/-- A flat roof of one square metre, 10 cm above the reference, in three faces. -/
def terrace : FootPrint ℚ :=
  ⟨[], ⟨0, 0, 0⟩, 2154, ⟨some ⟨0, 0, 1, 1⟩, [slab 1 0 0 (1 / 4) 1 (tenths 1), slab 2 (1 / 4) 0 (1 / 2) 1 (tenths 1), slab 3 (1 / 2) 0 1 1 (tenths 1)]⟩⟩

/-- C98: three faces at 10 cm in one pixel of one metre: the pixel is higher than all of them, by one unit in the last place. -/
theorem C98_above : ∃ r v, Raster.ofFootPrintD rectCgal fl fl (fun f q => centroid rectCgal q >>= fun c => planeHeightD rectCgal fl f c) true terrace 1 = .ok r ∧
    r.hits = [3] ∧ r.image = [v] ∧ (∀ f ∈ terrace.brick.faces, ∀ q : V2 ℚ, planeHeightD rectCgal fl f q = .ok (tenths 1)) ∧ v = tenths 1 + 2 ^ (-56 : ℤ) := by
  refine ⟨⟨[], ⟨0, 1, 0⟩, 2154, 1, 1, 1, [tenths 1 + 2 ^ (-56 : ℤ)], [3], true⟩, _, by decide +kernel, rfl, rfl, ?_, rfl⟩
  intro f hf q
  have e0 : fl (0 : ℚ) = 0 := fl_zero
  have e1 : fl (tenths 1) = tenths 1 := by decide +kernel
  have key : ∀ (id : Nat) (x0 y0 x1 y1 : ℚ), planeHeightD rectCgal fl (slab id x0 y0 x1 y1 (tenths 1)) q = .ok (tenths 1) := by
    intro id x0 y0 x1 y1
    generalize tenths 1 = t at e1
    show (if |(1 : ℚ)| < eps then Out.thrown .overflowError else Out.ok (fl (fl (fl (- -t - fl (0 * q.x)) - fl (0 * q.y)) / 1))) = _
    have : ¬ |(1 : ℚ)| < eps := by unfold eps; norm_num
    rw [if_neg this, zero_mul, zero_mul, e0, neg_neg, sub_zero, sub_zero, e1, e1, div_one, e1]
  have hf' : f ∈ [slab 1 0 0 (1 / 4) 1 (tenths 1), slab 2 (1 / 4) 0 (1 / 2) 1 (tenths 1), slab 3 (1 / 2) 0 1 1 (tenths 1)] := hf
  simp only [List.mem_cons, List.not_mem_nil, or_false] at hf'
  rcases hf' with rfl | rfl | rfl <;> exact key ..

theorem tenths_1 : tenths 1 = 7205759403792794 * 2 ^ (-56 : ℤ) := by
  have : tenths 1 = 7205759403792794 / 2 ^ 56 := by decide +kernel
  rw [this]
  norm_num

theorem rect_one (q r : Pwh ℚ) : (rectCgal.inter q r).length ≤ 1 := by
  show (rectInter q r).length ≤ 1
  unfold rectInter rects
  split <;> simp

/-- C98 is false for doubles: the pixel over a flat roof of 10 cm is not at 10 cm. -/
theorem C98_refuted : ¬ C98_full := by
  intro h
  have k := h rectCgal (fun _ _ => .ok (tenths 1)) terrace 1 (tenths 1) ⟨[], ⟨0, 1, 0⟩, 2154, 1, 1, 1, [tenths 1 + 2 ^ (-56 : ℤ)], [3], true⟩
    ⟨7205759403792794, -56, by norm_num, by norm_num, by norm_num, by rw [tenths_1]; norm_num⟩ rfl (fun _ _ _ => rfl) (fun _ _ _ => rect_one _ _) (by decide +kernel) 0 3 rfl (by norm_num)
  have k2 : tenths 1 + (2 : ℚ) ^ (-56 : ℤ) = tenths 1 := Option.some.inj k
  norm_num at k2

/-- The hypotheses of `C98_pixel_partial` are met by the terrace: the error is within the bound of four times 2^-51 of 10 cm, and not 0. -/
example : ∃ r, Raster.ofFootPrintD rectCgal fl fl (fun _ _ => .ok (tenths 1)) true terrace 1 = .ok r ∧ r.hits = [3] :=
  ⟨⟨[], ⟨0, 1, 0⟩, 2154, 1, 1, 1, [tenths 1 + 2 ^ (-56 : ℤ)], [3], true⟩, by decide +kernel, rfl⟩

/-- A flat roof at 3.25 m in the same three faces: exact (`C98_flat_partial` with m = 13, s = -2). -/
example : ∃ r, Raster.ofFootPrintD rectCgal fl fl (fun _ _ => .ok (13 * 2 ^ (-2 : ℤ))) true terrace 1 = .ok r ∧ r.hits = [3] ∧ r.image = [13 / 4] :=
  ⟨⟨[], ⟨0, 1, 0⟩, 2154, 1, 1, 1, [13 / 4], [3], true⟩, by decide +kernel, rfl, rfl⟩

end City.Props
