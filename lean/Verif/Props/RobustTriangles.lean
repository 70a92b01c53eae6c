import Verif.Props.RobustNormal
/-!
C91: the triangles of all meshes, with coordinates that a float cannot hold.
-/
set_option linter.unusedSectionVars false
set_option exponentiation.threshold 2000
namespace City.Spec
open City V3

/-- The coordinates of a point are at most `M`. -/
def PointWithin (M : ℚ) (p : V3 ℚ) : Prop := |p.x| ≤ M ∧ |p.y| ≤ M ∧ |p.z| ≤ M

end City.Spec

namespace City.Props
open City City.Spec V3

/-- A product of numbers that are changed a little. -/
theorem mul_change {x y x' y' W η : ℝ} (hx : |x| ≤ W) (hy : |y| ≤ W) (hx' : |x' - x| ≤ η) (hy' : |y' - y| ≤ η) : |x' * y' - x * y| ≤ 2 * W * η + η * η := by
  have hW : 0 ≤ W := (abs_nonneg _).trans hx
  have hη : 0 ≤ η := (abs_nonneg _).trans hx'
  have e : x' * y' - x * y = (x' - x) * (y' - y) + x * (y' - y) + (x' - x) * y := by ring
  rw [e]
  refine (abs_add_le _ _).trans ?_
  have t1 := abs_add_le ((x' - x) * (y' - y)) (x * (y' - y))
  rw [abs_mul, abs_mul] at t1
  rw [abs_mul]
  have p1 := mul_le_mul hx' hy' (abs_nonneg _) hη
  have p2 := mul_le_mul hx hy' (abs_nonneg _) hW
  have p3 := mul_le_mul hx' hy (abs_nonneg _) hη
  linarith

/-- The determinant of the sides and the normal of a triangle, all changed a little, is close to twice the area. -/
theorem det_change (a b a' b' f : V3 ℝ) (W η ν : ℝ) (hW : 0 ≤ W) (hη : 0 ≤ η) (ax : |a.x| ≤ W) (ay : |a.y| ≤ W) (az : |a.z| ≤ W) (bx : |b.x| ≤ W) (by' : |b.y| ≤ W) (bz : |b.z| ≤ W)
    (ax' : |a'.x - a.x| ≤ η) (ay' : |a'.y - a.y| ≤ η) (az' : |a'.z - a.z| ≤ η) (bx' : |b'.x - b.x| ≤ η) (by'' : |b'.y - b.y| ≤ η) (bz' : |b'.z - b.z| ≤ η)
    (hN : 0 < V3.norm (V3.cross a b)) (hν : ν ≤ 1 / 100) (fx : |f.x - (V3.cross a b).x / V3.norm (V3.cross a b)| ≤ ν)
    (fy : |f.y - (V3.cross a b).y / V3.norm (V3.cross a b)| ≤ ν) (fz : |f.z - (V3.cross a b).z / V3.norm (V3.cross a b)| ≤ ν) :
    |V3.dot (V3.cross a' b') f - V3.norm (V3.cross a b)| ≤ 36 / 10 * (2 * W * η + η * η) + 7 / 4 * ν * V3.norm (V3.cross a b) := by
  have dx : |(V3.cross a' b').x - (V3.cross a b).x| ≤ 2 * (2 * W * η + η * η) := by
    have := abs_sub (a'.y * b'.z - a.y * b.z) (a'.z * b'.y - a.z * b.y)
    rw [show a'.y * b'.z - a.y * b.z - (a'.z * b'.y - a.z * b.y) = (V3.cross a' b').x - (V3.cross a b).x by unfold V3.cross; dsimp only; ring] at this
    linarith [mul_change ay bz ay' bz', mul_change az by' az' by'']
  have dy : |(V3.cross a' b').y - (V3.cross a b).y| ≤ 2 * (2 * W * η + η * η) := by
    have := abs_sub (a'.z * b'.x - a.z * b.x) (a'.x * b'.z - a.x * b.z)
    rw [show a'.z * b'.x - a.z * b.x - (a'.x * b'.z - a.x * b.z) = (V3.cross a' b').y - (V3.cross a b).y by unfold V3.cross; dsimp only; ring] at this
    linarith [mul_change az bx az' bx', mul_change ax bz ax' bz']
  have dz : |(V3.cross a' b').z - (V3.cross a b).z| ≤ 2 * (2 * W * η + η * η) := by
    have := abs_sub (a'.x * b'.y - a.x * b.y) (a'.y * b'.x - a.y * b.x)
    rw [show a'.x * b'.y - a.x * b.y - (a'.y * b'.x - a.y * b.x) = (V3.cross a' b').z - (V3.cross a b).z by unfold V3.cross; dsimp only; ring] at this
    linarith [mul_change ax by' ax' by'', mul_change ay bx ay' bx']
  generalize V3.cross a' b' = c' at *
  generalize V3.cross a b = c at *
  have hsum := sum_abs_le c
  have hsq := norm_sq c
  have hκ : 0 ≤ 2 * W * η + η * η := by positivity
  generalize 2 * W * η + η * η = κ at *
  generalize V3.norm c = N at *
  have hν0 : 0 ≤ ν := (abs_nonneg _).trans fx
  have e : V3.dot c' f - N = (c'.x - c.x) * f.x + (c'.y - c.y) * f.y + (c'.z - c.z) * f.z +
      (c.x * (f.x - c.x / N) + c.y * (f.y - c.y / N) + c.z * (f.z - c.z / N)) := by
    have hdiv : c.x * (c.x / N) + c.y * (c.y / N) + c.z * (c.z / N) = N := by
      field_simp
      linarith
    unfold V3.dot
    linear_combination hdiv
  have fl : ∀ {g u : ℝ}, |g - u / N| ≤ ν → |g| ≤ |u| / N + ν := by
    intro g u h
    have := abs_add_le (g - u / N) (u / N)
    rw [sub_add_cancel, abs_div, abs_of_pos hN] at this
    linarith
  have hf : |f.x| + |f.y| + |f.z| ≤ 18 / 10 := by
    have h1 := fl fx
    have h2 := fl fy
    have h3 := fl fz
    have h4 : |c.x| / N + |c.y| / N + |c.z| / N ≤ 7 / 4 := by
      rw [← add_div, ← add_div, div_le_iff₀ hN]
      exact hsum
    linarith
  have m1 : ∀ {u v : ℝ}, |u| ≤ 2 * κ → |u * v| ≤ 2 * κ * |v| := fun {u v} h => by
    rw [abs_mul]
    exact mul_le_mul_of_nonneg_right h (abs_nonneg _)
  have m2 : ∀ {u v : ℝ}, |v| ≤ ν → |u * v| ≤ |u| * ν := fun {u v} h => by
    rw [abs_mul]
    exact mul_le_mul_of_nonneg_left h (abs_nonneg _)
  have t1 := m1 (v := f.x) dx
  have t2 := m1 (v := f.y) dy
  have t3 := m1 (v := f.z) dz
  have t4 := m2 (u := c.x) fx
  have t5 := m2 (u := c.y) fy
  have t6 := m2 (u := c.z) fz
  rw [e]
  have u1 := abs_add_le ((c'.x - c.x) * f.x + (c'.y - c.y) * f.y + (c'.z - c.z) * f.z) (c.x * (f.x - c.x / N) + c.y * (f.y - c.y / N) + c.z * (f.z - c.z / N))
  have u2 := abs_add_le ((c'.x - c.x) * f.x + (c'.y - c.y) * f.y) ((c'.z - c.z) * f.z)
  have u3 := abs_add_le ((c'.x - c.x) * f.x) ((c'.y - c.y) * f.y)
  have u4 := abs_add_le (c.x * (f.x - c.x / N) + c.y * (f.y - c.y / N)) (c.z * (f.z - c.z / N))
  have u5 := abs_add_le (c.x * (f.x - c.x / N)) (c.y * (f.y - c.y / N))
  have v1 : κ * (|f.x| + |f.y| + |f.z|) ≤ κ * (18 / 10) := mul_le_mul_of_nonneg_left hf hκ
  have v2 : (|c.x| + |c.y| + |c.z|) * ν ≤ 7 / 4 * N * ν := mul_le_mul_of_nonneg_right hsum hν0
  linarith

/-- A coordinate as a float. -/
theorem float_of {M x : ℚ} (h1 : 2 ^ (-100 : ℤ) ≤ M) (h2 : M ≤ 2 ^ (100 : ℤ)) (hx : |x| ≤ M) :
    ∃ y : ℚ, (Dbl.fin x).toFloat = .fin y ∧ |y - x| ≤ (2 ^ (-24 : ℤ) + 2 ^ (-50 : ℤ)) * M := by
  have he := fl32_abs_rel x
  have hs : (2 : ℚ) ^ (-150 : ℤ) ≤ 2 ^ (-50 : ℤ) * M := by
    refine le_trans ?_ (mul_le_mul_of_nonneg_left h1 (two_zpow_pos _).le)
    rw [← zpow_add₀ (by norm_num)]
    norm_num
  have h3 : (2 : ℚ) ^ (-24 : ℤ) * |x| ≤ 2 ^ (-24 : ℤ) * M := mul_le_mul_of_nonneg_left hx (two_zpow_pos _).le
  have h4 : |fl32 x - x| ≤ (2 ^ (-24 : ℤ) + 2 ^ (-50 : ℤ)) * M := by linarith
  have h5 : |fl32 x| < 2 ^ 128 := by
    have := abs_add_le (fl32 x - x) x
    rw [sub_add_cancel] at this
    have hM : (0 : ℚ) < M := lt_of_lt_of_le (two_zpow_pos _) h1
    norm_num at h4 h2 ⊢
    linarith
  exact ⟨_, Dbl.toFloat_fin h5, h4⟩

/-- A side of a triangle whose corners have become floats. -/
theorem float_side {M W x y : ℚ} (h1 : 2 ^ (-100 : ℤ) ≤ M) (h2 : M ≤ 2 ^ (100 : ℤ)) (hx : |x| ≤ M) (hy : |y| ≤ M) (hW : |x - y| ≤ W) (hWM : W ≤ 2 * M) :
    ∃ z : ℚ, ((Dbl.fin x).toFloat).sub ((Dbl.fin y).toFloat) = .fin z ∧ |z - (x - y)| ≤ 2 ^ (-23 : ℤ) * (1 + 2 ^ (-20 : ℤ)) * M := by
  obtain ⟨x', ex, hx'⟩ := float_of h1 h2 hx
  obtain ⟨y', ey, hy'⟩ := float_of h1 h2 hy
  rw [ex, ey, Dbl.sub_fin]
  have hM : (0 : ℚ) < M := lt_of_lt_of_le (two_zpow_pos _) h1
  have hE : |x' - y' - (x - y)| ≤ (2 ^ (-23 : ℤ) + 2 ^ (-49 : ℤ)) * M := by
    have := abs_sub (x' - x) (y' - y)
    rw [show x' - x - (y' - y) = x' - y' - (x - y) by ring] at this
    norm_num at hx' hy' ⊢
    linarith
  have hbig : 4 * (2 : ℚ) ^ (100 : ℤ) ≤ 2 ^ (1000 : ℤ) := by
    have : (4 : ℚ) = 2 ^ (2 : ℤ) := by norm_num
    rw [this, ← zpow_add₀ (by norm_num)]
    exact zpow_le_zpow_right₀ (by norm_num) (by norm_num)
  obtain ⟨z, ez, hz⟩ := off_round hE hW (by
    have : ((2 : ℚ) ^ (-23 : ℤ) + 2 ^ (-49 : ℤ)) * M ≤ M := mul_le_of_le_one_left hM.le (by norm_num)
    linarith)
  refine ⟨z, ez, hz.trans ?_⟩
  have hτ : (2 : ℚ) ^ (-1075 : ℤ) ≤ 2 ^ (-60 : ℤ) * M := by
    refine le_trans ?_ (mul_le_mul_of_nonneg_left h1 (two_zpow_pos _).le)
    rw [← zpow_add₀ (by norm_num)]
    exact zpow_le_zpow_right₀ (by norm_num) (by norm_num)
  generalize (2 : ℚ) ^ (-1075 : ℤ) = τ at *
  norm_num at hτ ⊢
  linarith

/-- C91, for all doubles between 2^-147 and 2^100 (or zero): the determinant computed on reading is twice the area of the triangle up to about one half of it, when twice the area is at least
2^-19 times the width `W` of the triangle times the largest coordinate `M`. -/
theorem C91_robust_determinant_partial (o : SumOrder) (M W : ℚ) (h1 : 2 ^ (-100 : ℤ) ≤ M) (h2 : M ≤ 2 ^ (100 : ℤ)) (hW1 : 2 ^ (-18 : ℤ) * M ≤ W) (hW2 : W ≤ 2 * M) (p q r : V3 ℚ)
    (hp : MultiplePoint (-200) p) (hq : MultiplePoint (-200) q) (hr : MultiplePoint (-200) r) (mp : PointWithin M p) (mq : PointWithin M q) (mr : PointWithin M r)
    (hpq : SideWithin W p q) (hqr : SideWithin W q r) (hA : 2 ^ (-19 : ℤ) * (M : ℝ) * W ≤ area2 p q r) :
    ∃ d : ℚ, determinantD (subD q.toDbl.toFloat p.toDbl.toFloat) (subD r.toDbl.toFloat q.toDbl.toFloat) (normalToD o p.toDbl q.toDbl r.toDbl).toFloat = .fin d ∧
      |(d : ℝ) - area2 p q r| ≤ 47 / 100 * area2 p q r := by
  have hM0 : (0 : ℚ) < M := lt_of_lt_of_le (two_zpow_pos _) h1
  have hW0 : (0 : ℚ) < W := lt_of_lt_of_le (mul_pos (two_zpow_pos _) hM0) hW1
  have hM0' : (0 : ℝ) < M := by exact_mod_cast hM0
  have hW0' : (0 : ℝ) < W := by exact_mod_cast hW0
  have hW1' : 2 ^ (-18 : ℤ) * (M : ℝ) ≤ W := by
    have := (Rat.cast_le (K := ℝ)).2 hW1
    rwa [Rat.cast_mul, zpow_cast] at this
  have hW2' : (W : ℝ) ≤ 2 * M := by exact_mod_cast hW2
  have hWlo : (2 : ℚ) ^ (-150 : ℤ) ≤ W := by
    refine le_trans ?_ ((mul_le_mul_of_nonneg_left h1 (two_zpow_pos _).le).trans hW1)
    rw [← zpow_add₀ (by norm_num)]
    exact zpow_le_zpow_right₀ (by norm_num) (by norm_num)
  have hWhi : W ≤ 2 ^ (200 : ℤ) := by
    refine hW2.trans ((mul_le_mul_of_nonneg_left h2 (by norm_num)).trans ?_)
    have : (2 : ℚ) = 2 ^ (1 : ℤ) := by norm_num
    nth_rewrite 1 [this]
    rw [← zpow_add₀ (by norm_num)]
    exact zpow_le_zpow_right₀ (by norm_num) (by norm_num)
  have hMW : (W : ℝ) ^ 2 ≤ 2 * (M * W) := by nlinarith
  have hMW0 : (0 : ℝ) < M * W := mul_pos hM0' hW0'
  have hA' : 2 ^ (-19 : ℤ) * ((M : ℝ) * W) ≤ area2 p q r := by rw [← mul_assoc]; exact hA
  have hN : 0 < area2 p q r := lt_of_lt_of_le (mul_pos (two_zpow_pos _) hMW0) hA'
  have hthin : 2 ^ (-40 : ℤ) * (W : ℝ) ^ 2 ≤ area2 p q r := by
    norm_num at hA' ⊢
    linarith
  obtain ⟨n, en, nx, ny, nz⟩ := C89_robust_partial o W hWlo hWhi p q r hp hq hr hpq hqr hthin
  have hν : (2 : ℝ) ^ (-46 : ℤ) * ((W : ℝ) ^ 2 / area2 p q r) ≤ 2 ^ (-26 : ℤ) := by
    rw [← mul_div_assoc, div_le_iff₀ hN]
    norm_num at hA' ⊢
    linarith
  have hnorm : normalTo (realPoint p) (realPoint q) (realPoint r) =
      V3.divs (V3.cross (V3.sub (realPoint q) (realPoint p)) (V3.sub (realPoint r) (realPoint q))) (area2 p q r) := rfl
  rw [hnorm] at nx ny nz
  have hun := abs_le_norm (V3.cross (V3.sub (realPoint q) (realPoint p)) (V3.sub (realPoint r) (realPoint q)))
  change |_| ≤ area2 p q r ∧ |_| ≤ area2 p q r ∧ |_| ≤ area2 p q r at hun
  have flt : ∀ {m : ℚ} {u : ℝ}, |(m : ℝ) - u / area2 p q r| ≤ 2 ^ (-46 : ℤ) * ((W : ℝ) ^ 2 / area2 p q r) → |u| ≤ area2 p q r →
      ∃ y : ℚ, (Dbl.fin m).toFloat = .fin y ∧ |y| ≤ 2 ∧ |(y : ℝ) - u / area2 p q r| ≤ 2 ^ (-23 : ℤ) := by
    intro m u hm hu
    have hu1 : |u / area2 p q r| ≤ 1 := by
      rw [abs_div, abs_of_pos hN, div_le_one hN]
      exact hu
    have hm' := hm.trans hν
    have hmb : |(m : ℝ)| ≤ 1 + 2 ^ (-26 : ℤ) := by
      have := abs_add_le ((m : ℝ) - u / area2 p q r) (u / area2 p q r)
      rw [sub_add_cancel] at this
      exact this.trans ((add_le_add hm' hu1).trans (le_of_eq (add_comm _ _)))
    have he : |((fl32 m : ℚ) : ℝ) - m| ≤ 2 ^ (-24 : ℤ) * |(m : ℝ)| + 2 ^ (-150 : ℤ) := by
      have := (Rat.cast_le (K := ℝ)).2 (fl32_abs_rel m)
      rwa [Rat.cast_add, Rat.cast_mul, zpow_cast, zpow_cast, Rat.cast_abs, Rat.cast_abs, Rat.cast_sub] at this
    have t1 := abs_sub_le ((fl32 m : ℚ) : ℝ) m (u / area2 p q r)
    have t2 := abs_add_le (((fl32 m : ℚ) : ℝ) - m) m
    rw [sub_add_cancel] at t2
    have hb : |((fl32 m : ℚ) : ℝ)| ≤ 2 ∧ |((fl32 m : ℚ) : ℝ) - u / area2 p q r| ≤ 2 ^ (-23 : ℤ) := by
      generalize |((fl32 m : ℚ) : ℝ) - u / area2 p q r| = T1 at *
      generalize |((fl32 m : ℚ) : ℝ) - m| = T2 at *
      generalize |((fl32 m : ℚ) : ℝ)| = T3 at *
      generalize |(m : ℝ) - u / area2 p q r| = T4 at *
      generalize |(m : ℝ)| = T5 at *
      norm_num at hm' hmb he ⊢
      constructor <;> linarith
    have hb1 : |fl32 m| ≤ 2 := by exact_mod_cast hb.1
    exact ⟨_, Dbl.toFloat_fin (lt_of_le_of_lt hb1 (by norm_num)), hb1, hb.2⟩
  obtain ⟨fx, ex, bfx, gx⟩ := flt nx hun.1
  obtain ⟨fy, ey, bfy, gy⟩ := flt ny hun.2.1
  obtain ⟨fz, ez, bfz, gz⟩ := flt nz hun.2.2
  have hf : (normalToD o p.toDbl q.toDbl r.toDbl).toFloat = (⟨fx, fy, fz⟩ : V3 ℚ).toDbl := by
    rw [en]
    exact V3.ext ex ey ez
  obtain ⟨ax, eax, hax⟩ := float_side h1 h2 mq.1 mp.1 hpq.1 hW2
  obtain ⟨ay, eay, hay⟩ := float_side h1 h2 mq.2.1 mp.2.1 hpq.2.1 hW2
  obtain ⟨az, eaz, haz⟩ := float_side h1 h2 mq.2.2 mp.2.2 hpq.2.2 hW2
  obtain ⟨bx, ebx, hbx⟩ := float_side h1 h2 mr.1 mq.1 hqr.1 hW2
  obtain ⟨by', eby, hby⟩ := float_side h1 h2 mr.2.1 mq.2.1 hqr.2.1 hW2
  obtain ⟨bz, ebz, hbz⟩ := float_side h1 h2 mr.2.2 mq.2.2 hqr.2.2 hW2
  have hs1 : subD q.toDbl.toFloat p.toDbl.toFloat = (⟨ax, ay, az⟩ : V3 ℚ).toDbl := V3.ext eax eay eaz
  have hs2 : subD r.toDbl.toFloat q.toDbl.toFloat = (⟨bx, by', bz⟩ : V3 ℚ).toDbl := V3.ext ebx eby ebz
  rw [hs1, hs2, hf]
  have hηW : 2 ^ (-23 : ℤ) * (1 + 2 ^ (-20 : ℤ)) * M ≤ W := by
    norm_num at hW1 ⊢
    linarith
  have wide : ∀ {z x : ℚ}, |z - x| ≤ 2 ^ (-23 : ℤ) * (1 + 2 ^ (-20 : ℤ)) * M → |x| ≤ W → |z| ≤ 2 * W := by
    intro z x hz hx
    have := abs_add_le (z - x) x
    rw [sub_add_cancel] at this
    linarith
  obtain ⟨-, d, hd, herr⟩ := det_app (M := 2 * W) (by
      refine le_trans ?_ (hWlo.trans (by linarith))
      exact zpow_le_zpow_right₀ (by norm_num) (by norm_num)) (by
      refine (mul_le_mul_of_nonneg_left hWhi (by norm_num)).trans ?_
      have : (2 : ℚ) = 2 ^ (1 : ℤ) := by norm_num
      nth_rewrite 1 [this]
      rw [← zpow_add₀ (by norm_num)]
      exact zpow_le_zpow_right₀ (by norm_num) (by norm_num))
    ⟨ax, ay, az⟩ ⟨bx, by', bz⟩ ⟨fx, fy, fz⟩ (wide hax hpq.1) (wide hay hpq.2.1) (wide haz hpq.2.2) (wide hbx hqr.1) (wide hby hqr.2.1) (wide hbz hqr.2.2) bfx bfy bfz
  refine ⟨d, hd, ?_⟩
  have castW : ∀ {a b : ℚ}, |a - b| ≤ W → |(a : ℝ) - b| ≤ W := fun h => by exact_mod_cast h
  have castη : ∀ {z a b : ℚ}, |z - (a - b)| ≤ 2 ^ (-23 : ℤ) * (1 + 2 ^ (-20 : ℤ)) * M → |(z : ℝ) - ((a : ℝ) - b)| ≤ 2 ^ (-23 : ℤ) * (1 + 2 ^ (-20 : ℤ)) * (M : ℝ) := fun h => by
    have := (Rat.cast_le (K := ℝ)).2 h
    rw [Rat.cast_mul, Rat.cast_mul, Rat.cast_add, zpow_cast, zpow_cast, Rat.cast_abs, Rat.cast_sub, Rat.cast_sub, Rat.cast_one] at this
    exact this
  have hdc := det_change (V3.sub (realPoint q) (realPoint p)) (V3.sub (realPoint r) (realPoint q)) (realPoint ⟨ax, ay, az⟩) (realPoint ⟨bx, by', bz⟩) (realPoint ⟨fx, fy, fz⟩)
    W (2 ^ (-23 : ℤ) * (1 + 2 ^ (-20 : ℤ)) * M) (2 ^ (-23 : ℤ)) hW0'.le (by positivity) (castW hpq.1) (castW hpq.2.1) (castW hpq.2.2) (castW hqr.1) (castW hqr.2.1) (castW hqr.2.2)
    (castη hax) (castη hay) (castη haz) (castη hbx) (castη hby) (castη hbz) hN (by norm_num) gx gy gz
  change |_ - area2 p q r| ≤ _ + 7 / 4 * 2 ^ (-23 : ℤ) * area2 p q r at hdc
  have hdet : ((V3.determinant ⟨ax, ay, az⟩ ⟨bx, by', bz⟩ ⟨fx, fy, fz⟩ : ℚ) : ℝ) =
      V3.dot (V3.cross (realPoint ⟨ax, ay, az⟩) (realPoint ⟨bx, by', bz⟩)) (realPoint ⟨fx, fy, fz⟩) := by
    unfold V3.determinant V3.dot V3.cross realPoint
    push_cast
    ring
  have herr' : |(d : ℝ) - V3.dot (V3.cross (realPoint ⟨ax, ay, az⟩) (realPoint ⟨bx, by', bz⟩)) (realPoint ⟨fx, fy, fz⟩)| ≤ 7 * 2 ^ (-52 : ℤ) * (12 * (2 * (W : ℝ)) ^ 2) := by
    have := (Rat.cast_le (K := ℝ)).2 herr
    rw [Rat.cast_abs, Rat.cast_sub, hdet] at this
    refine this.trans (le_of_eq ?_)
    push_cast
    rfl
  have t := abs_sub_le (d : ℝ) (V3.dot (V3.cross (realPoint ⟨ax, ay, az⟩) (realPoint ⟨bx, by', bz⟩)) (realPoint ⟨fx, fy, fz⟩)) (area2 p q r)
  refine t.trans ((add_le_add herr' hdc).trans ?_)
  have q1 : (M : ℝ) * M ≤ 2 ^ (18 : ℤ) * (M * W) := by
    have := mul_le_mul_of_nonneg_left hW1' hM0'.le
    norm_num at this ⊢
    linarith
  have e1 : 2 * (W : ℝ) * (2 ^ (-23 : ℤ) * (1 + 2 ^ (-20 : ℤ)) * M) + 2 ^ (-23 : ℤ) * (1 + 2 ^ (-20 : ℤ)) * M * (2 ^ (-23 : ℤ) * (1 + 2 ^ (-20 : ℤ)) * M) =
      2 * (2 ^ (-23 : ℤ) * (1 + 2 ^ (-20 : ℤ))) * (M * W) + (2 ^ (-23 : ℤ) * (1 + 2 ^ (-20 : ℤ))) ^ 2 * (M * M) := by ring
  have e2 : (7 : ℝ) * 2 ^ (-52 : ℤ) * (12 * (2 * (W : ℝ)) ^ 2) = 336 * 2 ^ (-52 : ℤ) * (W : ℝ) ^ 2 := by ring
  rw [e1, e2]
  generalize (M : ℝ) * M = A at *
  generalize (M : ℝ) * W = B at *
  generalize (W : ℝ) ^ 2 = C at *
  generalize area2 p q r = N at *
  norm_num at hA' q1 ⊢
  linarith

/-- C91: such a triangle keeps its orientation, although its corners are moved when they become floats. -/
theorem C91_robust_orientation_partial (o : SumOrder) (M W : ℚ) (h1 : 2 ^ (-100 : ℤ) ≤ M) (h2 : M ≤ 2 ^ (100 : ℤ)) (hW1 : 2 ^ (-18 : ℤ) * M ≤ W) (hW2 : W ≤ 2 * M)
    (co : List (V3 ℚ)) (hco : ∀ p ∈ co, MultiplePoint (-200) p ∧ PointWithin M p) (a b c : Nat) (ha : a < co.length) (hb : b < co.length) (hc : c < co.length)
    (hab : SideWithin W co[a] co[b]) (hbc : SideWithin W co[b] co[c]) (hA : 2 ^ (-19 : ℤ) * (M : ℝ) * W ≤ area2 co[a] co[b] co[c]) (hE : 2 ^ (-51 : ℤ) ≤ area2 co[a] co[b] co[c]) :
    storedD o (co.map V3.toDbl) ⟨[a, b, c]⟩ = ⟨[a, b, c]⟩ := by
  have P : ∀ {i} (hi : i < co.length), ptD (co.map V3.toDbl) i = co[i].toDbl := by
    intro i hi
    simp [ptD, hi]
  have e : storedD o (co.map V3.toDbl) ⟨[a, b, c]⟩ = Face.ofTriple a b c (keptD o co[a].toDbl co[b].toDbl co[c].toDbl) := by
    rw [← P ha, ← P hb, ← P hc]; rfl
  rw [e]
  unfold keptD
  obtain ⟨ga, ma⟩ := hco _ (List.getElem_mem ha)
  obtain ⟨gb, mb⟩ := hco _ (List.getElem_mem hb)
  obtain ⟨gc, mc⟩ := hco _ (List.getElem_mem hc)
  obtain ⟨d, hd, herr⟩ := C91_robust_determinant_partial o M W h1 h2 hW1 hW2 _ _ _ ga gb gc ma mb mc hab hbc hA
  rw [hd]
  generalize area2 co[a] co[b] co[c] = A at *
  have lt : (Dbl.fin (2 ^ (-52 : ℤ))).lt (.fin d) = decide ((2 : ℚ) ^ (-52 : ℤ) < d) := rfl
  have hdr : (2 : ℚ) ^ (-52 : ℤ) < d ↔ (2 : ℝ) ^ (-52 : ℤ) < d := by rw [← zpow_cast (K := ℝ), Rat.cast_lt]
  have herr' := abs_le.1 herr
  rw [lt, decide_eq_true (hdr.2 ?_)]
  · rfl
  · norm_num at hE herr' ⊢
    linarith

/-- C91, the part that holds for all doubles: a mesh of triangles that are not thin compared with the rounding of its coordinates to floats is read back with the same name and the same triangles,
its points rounded to floats. `M` is the largest coordinate, `W` the width of a triangle. -/
theorem C91_robust_partial (o : SumOrder) (M : ℚ) (h1 : 2 ^ (-100 : ℤ) ≤ M) (h2 : M ≤ 2 ^ (100 : ℤ)) (name : Text) (ps : List (V3 ℚ)) (fs : List Face)
    (hps : ∀ p ∈ ps, MultiplePoint (-200) p ∧ PointWithin M p) (hfit : Fits3dsD (dmesh name ps fs)) (hv : ValidD (dmesh name ps fs)) (h3 : ∀ f ∈ fs, f.degree = 3)
    (hname : '\x00' ∉ name)
    (hthick : ∀ f ∈ fs, ∃ W : ℚ, 2 ^ (-18 : ℤ) * M ≤ W ∧ W ≤ 2 * M ∧ SideWithin W (pt ps (f.points.getD 0 0)) (pt ps (f.points.getD 1 0)) ∧
      SideWithin W (pt ps (f.points.getD 1 0)) (pt ps (f.points.getD 2 0)) ∧
      2 ^ (-19 : ℤ) * (M : ℝ) * W ≤ area2 (pt ps (f.points.getD 0 0)) (pt ps (f.points.getD 1 0)) (pt ps (f.points.getD 2 0)))
    (harea : ∀ f ∈ fs, 2 ^ (-51 : ℤ) ≤ area2 (pt ps (f.points.getD 0 0)) (pt ps (f.points.getD 1 0)) (pt ps (f.points.getD 2 0))) :
    ∃ d, (dmesh name ps fs).to3ds o = .ok d ∧ DMesh.of3ds d = .ok ⟨name, (ps.map V3.toDbl).map V3.toFloat, fs⟩ := by
  obtain ⟨d, hd, hr⟩ := C91_shape o (dmesh name ps fs) hfit hv (triangles_convex o _ hv h3)
  refine ⟨d, hd, ?_⟩
  rw [hr]
  have e1 : cName (dmesh name ps fs).name = name := cName_self hname
  have e3 : (dmesh name ps fs).faces.map (storedD o (dmesh name ps fs).points) = fs := by
    conv_rhs => rw [← List.map_id fs]
    apply List.map_congr_left
    intro f hf
    have hl := h3 f hf
    have hval := (hv f hf).2.2
    obtain ⟨W, hW1, hW2, w1, w2, hA⟩ := hthick f hf
    have har := harea f hf
    unfold Face.degree at hl
    obtain ⟨p⟩ := f
    match p, hl with
    | [a, b, c], _ =>
      have ha : a < ps.length := by simpa [dmesh] using hval a (by simp)
      have hb : b < ps.length := by simpa [dmesh] using hval b (by simp)
      have hc : c < ps.length := by simpa [dmesh] using hval c (by simp)
      have P : ∀ {i} (hi : i < ps.length), pt ps i = ps[i] := by
        intro i hi
        simp [pt, hi]
      change SideWithin W (pt ps a) (pt ps b) at w1
      change SideWithin W (pt ps b) (pt ps c) at w2
      change 2 ^ (-19 : ℤ) * (M : ℝ) * W ≤ area2 (pt ps a) (pt ps b) (pt ps c) at hA
      change 2 ^ (-51 : ℤ) ≤ area2 (pt ps a) (pt ps b) (pt ps c) at har
      rw [P ha, P hb] at w1
      rw [P hb, P hc] at w2
      rw [P ha, P hb, P hc] at hA har
      exact C91_robust_orientation_partial o M W h1 h2 hW1 hW2 ps hps a b c ha hb hc w1 w2 hA har
  have e4 : ((dmesh name ps fs).faces.map fun f => f.degree - 3).sum = 0 := by
    have : ((dmesh name ps fs).faces.map fun f => f.degree - 3) = fs.map fun _ => 0 := by
      apply List.map_congr_left
      intro f hf
      rw [h3 f hf]
    rw [this]; simp
  rw [e1, e3, e4, List.replicate_zero, List.append_nil]
  rfl

/-- Half a square of 64 metres in a national grid, with quarters of metres that a float cannot hold. -/
def yard : List (V3 ℚ) := [⟨652000, 6862000 + 1 / 4, 10⟩, ⟨652064, 6862000, 10⟩, ⟨652064, 6862064, 10⟩]

theorem yard_area : area2 ⟨652000, 6862000 + 1 / 4, 10⟩ ⟨652064, 6862000, 10⟩ ⟨652064, 6862064, 10⟩ = 4096 := by
  unfold area2 V3.norm V3.dot V3.cross V3.sub realPoint
  norm_num
  rw [show (16777216 : ℝ) = 4096 ^ 2 by norm_num]
  exact Real.sqrt_sq (by norm_num)

example (o : SumOrder) : ∃ d, (dmesh "yard".toList yard [⟨[0, 1, 2]⟩]).to3ds o = .ok d ∧
    DMesh.of3ds d = .ok ⟨"yard".toList, (yard.map V3.toDbl).map V3.toFloat, [⟨[0, 1, 2]⟩]⟩ := by
  refine C91_robust_partial o (2 ^ 23) (by norm_num) (by norm_num) _ _ _ ?_ ?_ ?_ ?_ ?_ ?_ ?_
  · intro p hp
    simp only [yard, List.mem_cons, List.not_mem_nil, or_false] at hp
    rcases hp with rfl | rfl | rfl
    · exact ⟨⟨⟨652000 * 2 ^ 200, by norm_num⟩, ⟨(4 * 6862000 + 1) * 2 ^ 198, by norm_num⟩, ⟨10 * 2 ^ 200, by norm_num⟩⟩, by unfold PointWithin; norm_num⟩
    · exact ⟨⟨⟨652064 * 2 ^ 200, by norm_num⟩, ⟨6862000 * 2 ^ 200, by norm_num⟩, ⟨10 * 2 ^ 200, by norm_num⟩⟩, by unfold PointWithin; norm_num⟩
    · exact ⟨⟨⟨652064 * 2 ^ 200, by norm_num⟩, ⟨6862064 * 2 ^ 200, by norm_num⟩, ⟨10 * 2 ^ 200, by norm_num⟩⟩, by unfold PointWithin; norm_num⟩
  · exact ⟨by decide, by show ([_, _, _] : List (V3 Dbl)).length < 65536; simp⟩
  · intro f hf
    simp only [dmesh, List.mem_cons, List.not_mem_nil, or_false] at hf
    rcases hf with rfl
    simp [Face.degree, dmesh, yard]
  · simp [Face.degree]
  · decide
  · intro f hf
    simp only [List.mem_cons, List.not_mem_nil, or_false] at hf
    rcases hf with rfl
    refine ⟨64, by norm_num, by norm_num, ?_, ?_, ?_⟩
    · show SideWithin 64 ⟨652000, 6862000 + 1 / 4, 10⟩ ⟨652064, 6862000, 10⟩
      unfold SideWithin
      norm_num [abs_le]
    · show SideWithin 64 ⟨652064, 6862000, 10⟩ ⟨652064, 6862064, 10⟩
      unfold SideWithin
      norm_num
    · show _ ≤ area2 ⟨652000, 6862000 + 1 / 4, 10⟩ ⟨652064, 6862000, 10⟩ ⟨652064, 6862064, 10⟩
      rw [yard_area]
      norm_num
  · intro f hf
    simp only [List.mem_cons, List.not_mem_nil, or_false] at hf
    rcases hf with rfl
    show _ ≤ area2 ⟨652000, 6862000 + 1 / 4, 10⟩ ⟨652064, 6862000, 10⟩ ⟨652064, 6862064, 10⟩
    rw [yard_area]
    norm_num

end City.Props
