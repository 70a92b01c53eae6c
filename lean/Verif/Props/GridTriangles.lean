import Verif.Props.Mesh3dsDbl
/-!
C91: all triangles of a grid, long or thin.
-/
set_option linter.unusedSectionVars false
set_option exponentiation.threshold 2000
namespace City.Props
open City City.Spec V3

/-- The sides of a triangle of the grid. -/
theorem grid_side {s : ℤ} {p q : V3 ℚ} (hp : ScaledPoint s (2 ^ 24) p) (hq : ScaledPoint s (2 ^ 24) q) : ScaledPoint s (2 ^ 25) (V3.sub q p) :=
  ⟨(hq.1.sub hp.1).mono (by norm_num), (hq.2.1.sub hp.2.1).mono (by norm_num), (hq.2.2.sub hp.2.2).mono (by norm_num)⟩

theorem cross_real (p q r : V3 ℚ) : V3.cross (V3.sub (realPoint q) (realPoint p)) (V3.sub (realPoint r) (realPoint q)) =
    realPoint (V3.cross (V3.sub q p) (V3.sub r q)) := by
  unfold realPoint V3.cross V3.sub
  push_cast
  rfl

/-- A triangle of the grid that is not flat has at least half a square unit. -/
theorem grid_area {s : ℤ} {p q r : V3 ℚ} (hp : ScaledPoint s (2 ^ 24) p) (hq : ScaledPoint s (2 ^ 24) q) (hr : ScaledPoint s (2 ^ 24) r)
    (h0 : ¬ Collinear3 (realPoint p) (realPoint q) (realPoint r)) : (2 : ℝ) ^ (2 * s) ≤ area2 p q r := by
  have hcR := cross_real p q r
  set c := V3.cross (V3.sub q p) (V3.sub r q) with hcdef
  have hc0 : c ≠ ⟨0, 0, 0⟩ := by
    intro h
    apply h0
    unfold Collinear3
    rw [hcR, h]
    unfold realPoint V3.zero
    norm_num
  have harea : area2 p q r = V3.norm (realPoint c) := by unfold area2; rw [hcR]
  rw [harea]
  obtain ⟨a1, a2, a3⟩ := grid_side hp hq
  obtain ⟨b1, b2, b3⟩ := grid_side hq hr
  have big : ∀ {N : ℤ} {x : ℚ}, Scaled (s + s) N x → x ≠ 0 → (2 : ℝ) ^ (2 * s) ≤ |(x : ℝ)| := by
    rintro N x ⟨n, -, rfl⟩ hx
    have hn : n ≠ 0 := by rintro rfl; exact hx (by simp)
    have hn1 : 1 ≤ |n| := Int.one_le_abs hn
    have hn1' : (1 : ℝ) ≤ |(n : ℝ)| := by exact_mod_cast hn1
    rw [Rat.cast_mul, zpow_cast, Rat.cast_intCast, abs_mul, abs_of_pos (two_zpow_pos (K := ℝ) _), two_mul]
    exact le_mul_of_one_le_left (two_zpow_pos _).le hn1'
  have le : ∀ {x : ℝ}, x * x ≤ V3.dot (realPoint c) (realPoint c) → |x| ≤ V3.norm (realPoint c) := fun h => by
    unfold V3.norm
    exact Real.abs_le_sqrt (by rw [sq]; exact h)
  have nx := mul_self_nonneg (c.x : ℝ)
  have ny := mul_self_nonneg (c.y : ℝ)
  have nz := mul_self_nonneg (c.z : ℝ)
  by_cases hx : c.x = 0
  · by_cases hy : c.y = 0
    · have hz : c.z ≠ 0 := fun hz => hc0 (V3.ext hx hy hz)
      exact (big (x := c.z) ((a1.mul b2).sub (a2.mul b1)) hz).trans (le (by unfold V3.dot realPoint; dsimp only; linarith))
    · exact (big (x := c.y) ((a3.mul b1).sub (a1.mul b3)) hy).trans (le (by unfold V3.dot realPoint; dsimp only; linarith))
  · exact (big (x := c.x) ((a2.mul b3).sub (a3.mul b2)) hx).trans (le (by unfold V3.dot realPoint; dsimp only; linarith))

/-- A finite double within `E` of a number. -/
def OffBy (E : ℚ) (d : Dbl) (x : ℚ) : Prop := ∃ q, d = .fin q ∧ |q - x| ≤ E

theorem OffBy.self (q : ℚ) : OffBy 0 (.fin q) q := ⟨q, rfl, by rw [sub_self, abs_zero]⟩

theorem OffBy.mono {E F x : ℚ} {d : Dbl} (h : OffBy E d x) (hF : E ≤ F) : OffBy F d x := by
  obtain ⟨q, e, hq⟩ := h
  exact ⟨q, e, hq.trans hF⟩

theorem off_round {E A x q : ℚ} (h : |q - x| ≤ E) (hx : |x| ≤ A) (hA : A + E ≤ 2 ^ (1000 : ℤ)) :
    OffBy (E + 2 ^ (-53 : ℤ) * (A + E) + 2 ^ (-1075 : ℤ)) (Dbl.ofExact q) x := by
  have hq : |q| ≤ A + E := by
    have := abs_add_le (q - x) x
    rw [sub_add_cancel] at this
    linarith
  refine ⟨fl q, Dbl.ofExact_eq (fl_finite hq hA), ?_⟩
  have h1 := fl_abs_rel' q
  have h2 := abs_sub_le (fl q) q x
  have h3 : (2 : ℚ) ^ (-53 : ℤ) * |q| ≤ 2 ^ (-53 : ℤ) * (A + E) := mul_le_mul_of_nonneg_left hq (two_zpow_pos _).le
  linarith

theorem OffBy.add {E F A x y : ℚ} {d e : Dbl} (h : OffBy E d x) (g : OffBy F e y) (hA : |x + y| ≤ A) (hb : A + (E + F) ≤ 2 ^ (1000 : ℤ)) :
    OffBy ((E + F) + 2 ^ (-53 : ℤ) * (A + (E + F)) + 2 ^ (-1075 : ℤ)) (d.add e) (x + y) := by
  obtain ⟨q, rfl, hq⟩ := h
  obtain ⟨r, rfl, hr⟩ := g
  rw [Dbl.add_fin]
  refine off_round ?_ hA hb
  have := abs_add_le (q - x) (r - y)
  rw [show q - x + (r - y) = q + r - (x + y) by ring] at this
  linarith

theorem OffBy.neg {E x : ℚ} {d : Dbl} (h : OffBy E d x) : OffBy E d.neg (-x) := by
  obtain ⟨q, rfl, hq⟩ := h
  exact ⟨-q, rfl, by rw [← neg_sub', abs_neg]; exact hq⟩

theorem OffBy.sub {E F A x y : ℚ} {d e : Dbl} (h : OffBy E d x) (g : OffBy F e y) (hA : |x - y| ≤ A) (hb : A + (E + F) ≤ 2 ^ (1000 : ℤ)) :
    OffBy ((E + F) + 2 ^ (-53 : ℤ) * (A + (E + F)) + 2 ^ (-1075 : ℤ)) (d.sub e) (x - y) := by
  rw [sub_eq_add_neg] at hA ⊢
  exact h.add g.neg hA hb

/-- The product of an exact product with a third factor. -/
theorem off_product {P f A : ℚ} (hA : |P * f| ≤ A) (hb : A ≤ 2 ^ (1000 : ℤ)) :
    OffBy (2 ^ (-53 : ℤ) * A + 2 ^ (-1075 : ℤ)) ((Dbl.fin P).mul (.fin f)) (P * f) := by
  have := off_round (E := 0) (q := P * f) (x := P * f) (by rw [sub_self, abs_zero]) hA (by rw [add_zero]; exact hb)
  simp only [zero_add, add_zero] at this
  exact this

/-- Six terms summed as the determinant sums them; the last partial sums are small when the whole is. -/
theorem off_six {X Y Z x1 x2 x3 x4 x5 x6 : ℚ} {t1 t2 t3 t4 t5 t6 : Dbl} (hX : X ≤ 2 ^ (300 : ℤ)) (hY : Y ≤ 2 ^ (300 : ℤ)) (hZ : Z ≤ 2 ^ (300 : ℤ))
    (b1 : |x1| ≤ Z) (b2 : |x2| ≤ Y) (b3 : |x3| ≤ Z) (b4 : |x4| ≤ X) (b5 : |x5| ≤ Y) (b6 : |x6| ≤ X)
    (h1 : OffBy (2 ^ (-53 : ℤ) * Z + 2 ^ (-1075 : ℤ)) t1 x1) (h2 : OffBy (2 ^ (-53 : ℤ) * Y + 2 ^ (-1075 : ℤ)) t2 x2)
    (h3 : OffBy (2 ^ (-53 : ℤ) * Z + 2 ^ (-1075 : ℤ)) t3 x3) (h4 : OffBy (2 ^ (-53 : ℤ) * X + 2 ^ (-1075 : ℤ)) t4 x4)
    (h5 : OffBy (2 ^ (-53 : ℤ) * Y + 2 ^ (-1075 : ℤ)) t5 x5) (h6 : OffBy (2 ^ (-53 : ℤ) * X + 2 ^ (-1075 : ℤ)) t6 x6) :
    OffBy (2 ^ (-53 : ℤ) * (1 + 2 ^ (-20 : ℤ)) * (4 * X + 5 * Y + 5 * Z) + 2 ^ (-50 : ℤ) * |x1 - x2 - x3 + x4 + x5 - x6| + 2 ^ (-1000 : ℤ))
      (((((t1.sub t2).sub t3).add t4).add t5).sub t6) (x1 - x2 - x3 + x4 + x5 - x6) := by
  have hbig : (2 : ℚ) ^ (1000 : ℤ) = 2 ^ (300 : ℤ) * 2 ^ (700 : ℤ) := by rw [← zpow_add₀ (by norm_num)]; norm_num
  have hbig' : (100 : ℚ) ≤ 2 ^ (700 : ℤ) := le_trans (by norm_num) (zpow_le_zpow_right₀ (by norm_num) (show (7 : ℤ) ≤ 700 by norm_num))
  have h300 : (1 : ℚ) ≤ 2 ^ (300 : ℤ) := one_le_zpow₀ (by norm_num) (by norm_num)
  have hlim : 100 * (2 : ℚ) ^ (300 : ℤ) ≤ 2 ^ (1000 : ℤ) := by rw [hbig]; nlinarith
  have htau0 : (0 : ℚ) < 2 ^ (-1075 : ℤ) := two_zpow_pos _
  have htau : 100 * (2 : ℚ) ^ (-1075 : ℤ) ≤ 2 ^ (-1000 : ℤ) := by
    have e : (2 : ℚ) ^ (-1000 : ℤ) = 2 ^ (-1075 : ℤ) * 2 ^ (75 : ℤ) := by rw [← zpow_add₀ (by norm_num)]; norm_num
    rw [e]
    have : (100 : ℚ) ≤ 2 ^ (75 : ℤ) := by norm_num
    nlinarith
  have htau1 : (2 : ℚ) ^ (-1000 : ℤ) ≤ 1 := zpow_le_one_of_nonpos₀ (by norm_num) (by norm_num)
  have sub' : ∀ {E F A x y G : ℚ} {d e : Dbl}, OffBy E d x → OffBy F e y → |x - y| ≤ A → A + (E + F) ≤ 2 ^ (1000 : ℤ) →
      (E + F) + 2 ^ (-53 : ℤ) * (A + (E + F)) + 2 ^ (-1075 : ℤ) ≤ G → OffBy G (d.sub e) (x - y) := fun h g hA hb hG => (h.sub g hA hb).mono hG
  have add' : ∀ {E F A x y G : ℚ} {d e : Dbl}, OffBy E d x → OffBy F e y → |x + y| ≤ A → A + (E + F) ≤ 2 ^ (1000 : ℤ) →
      (E + F) + 2 ^ (-53 : ℤ) * (A + (E + F)) + 2 ^ (-1075 : ℤ) ≤ G → OffBy G (d.add e) (x + y) := fun h g hA hb hG => (h.add g hA hb).mono hG
  have e53 : (2 : ℚ) ^ (-53 : ℤ) = 1 / 9007199254740992 := by norm_num
  have e20 : (2 : ℚ) ^ (-20 : ℤ) = 1 / 1048576 := by norm_num
  have e50 : (2 : ℚ) ^ (-50 : ℤ) = 1 / 1125899906842624 := by norm_num
  rw [e53] at h1 h2 h3 h4 h5 h6 sub' add'
  set D := x1 - x2 - x3 + x4 + x5 - x6 with hD
  have pX : 0 ≤ X := (abs_nonneg _).trans b4
  have pY : 0 ≤ Y := (abs_nonneg _).trans b2
  have pZ : 0 ≤ Z := (abs_nonneg _).trans b1
  have B1 := abs_le.1 b1
  have B2 := abs_le.1 b2
  have B3 := abs_le.1 b3
  have B4 := abs_le.1 b4
  have B5 := abs_le.1 b5
  have B6 := abs_le.1 b6
  have pD : 0 ≤ |D| := abs_nonneg _
  have D1 := neg_abs_le D
  have D2 := le_abs_self D
  have D3 : |D| ≤ 6 * 2 ^ (300 : ℤ) := abs_le.2 ⟨by linarith, by linarith⟩
  generalize |D| = W at *
  generalize (2 : ℚ) ^ (-1075 : ℤ) = τ at *
  generalize (2 : ℚ) ^ (1000 : ℤ) = T at *
  generalize (2 : ℚ) ^ (300 : ℤ) = S at *
  generalize (2 : ℚ) ^ (-1000 : ℤ) = σ at *
  rw [e53, e20, e50]
  clear e53 e20 e50 hbig hbig'
  have s1 := sub' (G := 2 / 9007199254740992 * (1 + 1 / 100000000) * (Z + Y) + 4 * τ) h1 h2 (A := Z + Y) (abs_le.2 ⟨by linarith, by linarith⟩) (by linarith) (by linarith)
  have s2 := sub' (G := 1 / 9007199254740992 * (1 + 1 / 10000000) * (5 * Z + 3 * Y) + 7 * τ) s1 h3 (A := 2 * Z + Y) (abs_le.2 ⟨by linarith, by linarith⟩) (by linarith) (by linarith)
  have s3 := add' (G := 1 / 9007199254740992 * (1 + 1 / 5000000) * (5 * Z + 4 * Y + 2 * X + W) + 10 * τ) s2 h4 (A := X + Y + W) (abs_le.2 ⟨by linarith, by linarith⟩) (by linarith) (by linarith)
  have s4 := add' (G := 1 / 9007199254740992 * (1 + 1 / 3000000) * (5 * Z + 5 * Y + 3 * X + 2 * W) + 13 * τ) s3 h5 (A := X + W) (abs_le.2 ⟨by linarith, by linarith⟩) (by linarith) (by linarith)
  exact sub' s4 h6 (A := W) (abs_le.2 ⟨by linarith, by linarith⟩) (by linarith) (by linarith)

/-- The components of the cross product of two sides are whole numbers of square units. -/
theorem c_multiple {s : ℤ} {a b : V3 ℚ} (ha : ScaledPoint s (2 ^ 25) a) (hb : ScaledPoint s (2 ^ 25) b) (k : Fin 3) :
    (![(realPoint (V3.cross a b)).x, (realPoint (V3.cross a b)).y, (realPoint (V3.cross a b)).z] k) = 0 ∨
      (2 : ℝ) ^ (2 * s) ≤ |![(realPoint (V3.cross a b)).x, (realPoint (V3.cross a b)).y, (realPoint (V3.cross a b)).z] k| := by
  have big : ∀ {N : ℤ} {x : ℚ}, Scaled (s + s) N x → (x : ℝ) = 0 ∨ (2 : ℝ) ^ (2 * s) ≤ |(x : ℝ)| := by
    rintro N x ⟨n, -, rfl⟩
    by_cases hn : n = 0
    · left; rw [hn]; simp
    · right
      have hn1 : 1 ≤ |n| := Int.one_le_abs hn
      have hn1' : (1 : ℝ) ≤ |(n : ℝ)| := by exact_mod_cast hn1
      rw [Rat.cast_mul, zpow_cast, Rat.cast_intCast, abs_mul, abs_of_pos (two_zpow_pos (K := ℝ) _), two_mul]
      exact le_mul_of_one_le_left (two_zpow_pos _).le hn1'
  obtain ⟨a1, a2, a3⟩ := ha
  obtain ⟨b1, b2, b3⟩ := hb
  match k with
  | 0 => exact big (x := (V3.cross a b).x) ((a2.mul b3).sub (a3.mul b2))
  | 1 => exact big (x := (V3.cross a b).y) ((a3.mul b1).sub (a1.mul b3))
  | 2 => exact big (x := (V3.cross a b).z) ((a1.mul b2).sub (a2.mul b1))

/-- The weights of the rounding errors: what is multiplied by a component of the normal is made up for by that component. -/
theorem weights {c f : V3 ℝ} {u N : ℝ} (hN : 0 < N) (hNN : N * N = V3.dot c c) (hu : 0 < u) (hlow : u ≤ N)
    (c1 : c.x = 0 ∨ u ≤ |c.x|) (c2 : c.y = 0 ∨ u ≤ |c.y|) (c3 : c.z = 0 ∨ u ≤ |c.z|)
    (hx : |f.x - c.x / N| ≤ 2 ^ (-23 : ℤ) * |c.x / N| + 2 ^ (-150 : ℤ)) (hy : |f.y - c.y / N| ≤ 2 ^ (-23 : ℤ) * |c.y / N| + 2 ^ (-150 : ℤ))
    (hz : |f.z - c.z / N| ≤ 2 ^ (-23 : ℤ) * |c.z / N| + 2 ^ (-150 : ℤ)) :
    u * (4 * |f.x| + 5 * |f.y| + 5 * |f.z|) ≤ (5 + 2 ^ (-20 : ℤ)) * N := by
  have one : ∀ {a g : ℝ}, (a = 0 ∨ u ≤ |a|) → |g - a / N| ≤ 2 ^ (-23 : ℤ) * |a / N| + 2 ^ (-150 : ℤ) → u * |g| ≤ (1 + 2 ^ (-23 : ℤ)) * (a * a / N) + 2 ^ (-150 : ℤ) * N := by
    intro a g ha hg
    have h1 : |g| ≤ (1 + 2 ^ (-23 : ℤ)) * |a / N| + 2 ^ (-150 : ℤ) := by
      have := abs_add_le (g - a / N) (a / N)
      rw [sub_add_cancel] at this
      linarith
    have h2 : u * |a / N| ≤ a * a / N := by
      rw [abs_div, abs_of_pos hN, ← mul_div_assoc]
      refine div_le_div_of_nonneg_right ?_ hN.le
      rcases ha with rfl | ha
      · simp
      · rw [← abs_mul_abs_self a]
        exact mul_le_mul_of_nonneg_right ha (abs_nonneg _)
    have h3 : u * 2 ^ (-150 : ℤ) ≤ 2 ^ (-150 : ℤ) * N := by rw [mul_comm]; exact mul_le_mul_of_nonneg_left hlow (two_zpow_pos _).le
    have h4 := mul_le_mul_of_nonneg_left h1 hu.le
    have h5 : (0 : ℝ) < 1 + 2 ^ (-23 : ℤ) := by positivity
    have h6 := mul_le_mul_of_nonneg_left h2 h5.le
    calc u * |g| ≤ u * ((1 + 2 ^ (-23 : ℤ)) * |a / N| + 2 ^ (-150 : ℤ)) := h4
      _ = (1 + 2 ^ (-23 : ℤ)) * (u * |a / N|) + u * 2 ^ (-150 : ℤ) := by ring
      _ ≤ _ := add_le_add h6 h3
  have hs : c.x * c.x / N + c.y * c.y / N + c.z * c.z / N = N := by
    unfold V3.dot at hNN
    field_simp
    linarith
  have ox := one c1 hx
  have oy := one c2 hy
  have oz := one c3 hz
  have p1 : 0 ≤ c.x * c.x / N := div_nonneg (mul_self_nonneg _) hN.le
  have p2 : 0 ≤ c.y * c.y / N := div_nonneg (mul_self_nonneg _) hN.le
  have p3 : 0 ≤ c.z * c.z / N := div_nonneg (mul_self_nonneg _) hN.le
  have e : u * (4 * |f.x| + 5 * |f.y| + 5 * |f.z|) = 4 * (u * |f.x|) + 5 * (u * |f.y|) + 5 * (u * |f.z|) := by ring
  rw [e]
  generalize u * |f.x| = A at *
  generalize u * |f.y| = B at *
  generalize u * |f.z| = C at *
  generalize c.x * c.x / N = X at *
  generalize c.y * c.y / N = Y at *
  generalize c.z * c.z / N = Z at *
  norm_num at ox oy oz ⊢
  linarith

/-- The determinant of two sides of the grid and a third vector. -/
theorem grid_det {s : ℤ} (h1 : -149 ≤ s) (h2 : s ≤ 100) {a b : V3 ℚ} (ha : ScaledPoint s (2 ^ 25) a) (hb : ScaledPoint s (2 ^ 25) b) (fx fy fz : ℚ)
    (bx : |fx| ≤ 2) (by' : |fy| ≤ 2) (bz : |fz| ≤ 2) :
    ∃ d : ℚ, determinantD a.toDbl b.toDbl (⟨fx, fy, fz⟩ : V3 ℚ).toDbl = .fin d ∧
      |d - V3.determinant a b ⟨fx, fy, fz⟩| ≤ 2 ^ (-53 : ℤ) * (1 + 2 ^ (-20 : ℤ)) *
        (4 * (|fx| * (2 ^ (50 : ℤ) * 2 ^ (2 * s))) + 5 * (|fy| * (2 ^ (50 : ℤ) * 2 ^ (2 * s))) + 5 * (|fz| * (2 ^ (50 : ℤ) * 2 ^ (2 * s)))) +
        2 ^ (-50 : ℤ) * |V3.determinant a b ⟨fx, fy, fz⟩| + 2 ^ (-1000 : ℤ) := by
  obtain ⟨a1, a2, a3⟩ := ha
  obtain ⟨b1, b2, b3⟩ := hb
  have hB : (2 : ℚ) ^ (50 : ℤ) * 2 ^ (2 * s) * 2 ≤ 2 ^ (300 : ℤ) := by
    rw [← zpow_add₀ (by norm_num), ← zpow_add_one₀ (by norm_num)]
    exact zpow_le_zpow_right₀ (by norm_num) (by omega)
  have hB0 : (0 : ℚ) < 2 ^ (50 : ℤ) * 2 ^ (2 * s) := mul_pos (two_zpow_pos _) (two_zpow_pos _)
  have small : ∀ {x y : ℚ}, Scaled s (2 ^ 25) x → Scaled s (2 ^ 25) y → |x * y| ≤ 2 ^ (50 : ℤ) * 2 ^ (2 * s) := by
    intro x y hx hy
    obtain ⟨n, hn, e⟩ := hx.mul hy
    rw [e, abs_mul, abs_of_pos (two_zpow_pos (K := ℚ) _), two_mul]
    refine mul_le_mul_of_nonneg_right ?_ (two_zpow_pos _).le
    have : |(n : ℚ)| ≤ 2 ^ 25 * 2 ^ 25 := by exact_mod_cast hn
    exact this.trans (by norm_num)
  have exact' : ∀ {x y : ℚ}, Scaled s (2 ^ 25) x → Scaled s (2 ^ 25) y → (Dbl.fin x).mul (.fin y) = .fin (x * y) := fun hx hy =>
    (hx.mul hy).exact (by norm_num) (by omega) (by omega)
  have bound : ∀ {x y f : ℚ}, Scaled s (2 ^ 25) x → Scaled s (2 ^ 25) y → |x * y * f| ≤ |f| * (2 ^ (50 : ℤ) * 2 ^ (2 * s)) := by
    intro x y f hx hy
    rw [abs_mul, mul_comm]
    exact mul_le_mul_of_nonneg_left (small hx hy) (abs_nonneg _)
  have lim : ∀ {f : ℚ}, |f| ≤ 2 → |f| * (2 ^ (50 : ℤ) * 2 ^ (2 * s)) ≤ 2 ^ (300 : ℤ) := by
    intro f hf
    rw [mul_comm]
    exact (mul_le_mul_of_nonneg_left hf hB0.le).trans hB
  have term : ∀ {x y f : ℚ}, Scaled s (2 ^ 25) x → Scaled s (2 ^ 25) y → |f| ≤ 2 →
      OffBy (2 ^ (-53 : ℤ) * (|f| * (2 ^ (50 : ℤ) * 2 ^ (2 * s))) + 2 ^ (-1075 : ℤ)) (((Dbl.fin x).mul (.fin y)).mul (.fin f)) (x * y * f) := by
    intro x y f hx hy hf
    rw [exact' hx hy]
    exact off_product (bound hx hy) ((lim hf).trans (zpow_le_zpow_right₀ (by norm_num) (by norm_num)))
  have six := off_six (lim bx) (lim by') (lim bz) (bound a1 b2) (bound a1 b3) (bound a2 b1) (bound a2 b3) (bound a3 b1) (bound a3 b2)
    (term a1 b2 bz) (term a1 b3 by') (term a2 b1 bz) (term a2 b3 bx) (term a3 b1 by') (term a3 b2 bx)
  exact six

/-- C91: on a grid (integer coordinates up to 2^24, in a unit that is a power of two) the determinant computed on reading has the sign of the orientation and the order of magnitude of twice
the area of the triangle: it is off by at most two thirds of it, for every triangle that is not flat, however long or thin. -/
theorem C91_grid_determinant_partial (o : SumOrder) (s : ℤ) (h1 : -149 ≤ s) (h2 : s ≤ 100) (p q r : V3 ℚ) (hp : ScaledPoint s (2 ^ 24) p) (hq : ScaledPoint s (2 ^ 24) q)
    (hr : ScaledPoint s (2 ^ 24) r) (h0 : ¬ Collinear3 (realPoint p) (realPoint q) (realPoint r)) :
    ∃ d : ℚ, determinantD (subD q.toDbl.toFloat p.toDbl.toFloat) (subD r.toDbl.toFloat q.toDbl.toFloat) (normalToD o p.toDbl q.toDbl r.toDbl).toFloat = .fin d ∧
      |(d : ℝ) - area2 p q r| ≤ 2 / 3 * area2 p q r := by
  have up : ∀ {a : V3 ℚ}, ScaledPoint s (2 ^ 24) a → ScaledPoint s (2 ^ 25) a := by
    rintro a ⟨a1, a2, a3⟩
    exact ⟨a1.mono (by norm_num), a2.mono (by norm_num), a3.mono (by norm_num)⟩
  have v1 : subD q.toDbl p.toDbl = (V3.sub q p).toDbl := (C88_exact_partial o s (by omega) (by omega) q p (up hq) (up hp)).2.1
  have v2 : subD r.toDbl q.toDbl = (V3.sub r q).toDbl := (C88_exact_partial o s (by omega) (by omega) r q (up hr) (up hq)).2.1
  rw [grid_point_toFloat h1 h2 hp, grid_point_toFloat h1 h2 hq, grid_point_toFloat h1 h2 hr, v1, v2]
  have hn := (C89_grid_partial o s (by omega) (by omega) p q r hp hq hr).2 h0
  set c := V3.cross (V3.sub q p) (V3.sub r q) with hcdef
  have hcR : V3.cross (V3.sub (realPoint q) (realPoint p)) (V3.sub (realPoint r) (realPoint q)) = realPoint c := by
    rw [hcdef]
    unfold realPoint V3.cross V3.sub
    push_cast
    rfl
  have hnorm : normalTo (realPoint p) (realPoint q) (realPoint r) = V3.divs (realPoint c) (V3.norm (realPoint c)) := by rw [← hcR]; rfl
  have hc0 : c ≠ ⟨0, 0, 0⟩ := by
    intro h
    apply h0
    unfold Collinear3
    rw [hcR, h]
    unfold realPoint V3.zero
    norm_num
  have harea : area2 p q r = V3.norm (realPoint c) := by unfold area2; rw [hcR]
  rw [harea]
  have hlow : (2 : ℝ) ^ (2 * s) ≤ V3.norm (realPoint c) := harea ▸ grid_area hp hq hr h0
  have hN : 0 < V3.norm (realPoint c) := lt_of_lt_of_le (two_zpow_pos _) hlow
  have hNN : V3.norm (realPoint c) * V3.norm (realPoint c) = V3.dot (realPoint c) (realPoint c) := by
    unfold V3.norm
    apply Real.mul_self_sqrt
    unfold V3.dot
    nlinarith [mul_self_nonneg (realPoint c).x, mul_self_nonneg (realPoint c).y, mul_self_nonneg (realPoint c).z]
  rw [hnorm] at hn
  generalize hNdef : V3.norm (realPoint c) = N at *
  have unit : ∀ {x : ℝ}, x * x ≤ V3.dot (realPoint c) (realPoint c) → |x / N| ≤ 1 := by
    intro x hx
    rw [abs_div, abs_of_pos hN, div_le_one hN]
    exact abs_le_of_sq_le_sq (by rw [sq, sq, hNN]; exact hx) hN.le
  have nx := mul_self_nonneg (c.x : ℝ)
  have ny := mul_self_nonneg (c.y : ℝ)
  have nz := mul_self_nonneg (c.z : ℝ)
  obtain ⟨fx, ex, bx, rx⟩ := near_toFloat hn.1 (unit (by unfold V3.dot realPoint; dsimp only; linarith))
  obtain ⟨fy, ey, by', ry⟩ := near_toFloat hn.2.1 (unit (by unfold V3.dot realPoint; dsimp only; linarith))
  obtain ⟨fz, ez, bz, rz⟩ := near_toFloat hn.2.2 (unit (by unfold V3.dot realPoint; dsimp only; linarith))
  have hf : (normalToD o p.toDbl q.toDbl r.toDbl).toFloat = (⟨fx, fy, fz⟩ : V3 ℚ).toDbl := by
    unfold V3.toFloat
    rw [ex, ey, ez]
    rfl
  rw [hf]
  obtain ⟨d, hd, herr⟩ := grid_det h1 h2 (grid_side hp hq) (grid_side hq hr) fx fy fz bx by' bz
  refine ⟨d, hd, ?_⟩
  have hnear := det_near (realPoint c) (V3.divs (realPoint c) N) ⟨fx, fy, fz⟩ N hN hNN rfl rx ry rz
  have hdet : ((V3.determinant (V3.sub q p) (V3.sub r q) ⟨fx, fy, fz⟩ : ℚ) : ℝ) = V3.dot (realPoint c) ⟨fx, fy, fz⟩ := by
    rw [hcdef]
    unfold V3.determinant V3.dot V3.cross realPoint
    push_cast
    ring
  have herr' := (Rat.cast_le (K := ℝ)).2 herr
  rw [Rat.cast_abs, Rat.cast_sub, hdet] at herr'
  have hcol := fun k => c_multiple (s := s) (grid_side hp hq) (grid_side hq hr) k
  have hweights := weights (c := realPoint c) (f := ⟨fx, fy, fz⟩) (u := 2 ^ (2 * s)) hN hNN (two_zpow_pos _) hlow (hcol 0) (hcol 1) (hcol 2) rx ry rz
  have t := abs_sub_le (d : ℝ) (V3.dot (realPoint c) ⟨fx, fy, fz⟩) N
  have t2 : |V3.dot (realPoint c) ⟨fx, fy, fz⟩| ≤ |V3.dot (realPoint c) ⟨fx, fy, fz⟩ - N| + N := by
    have := abs_add_le (V3.dot (realPoint c) ⟨fx, fy, fz⟩ - N) N
    rw [sub_add_cancel, abs_of_pos hN] at this
    exact this
  have hsmall : (2 : ℝ) ^ (-1000 : ℤ) ≤ 2 ^ (-100 : ℤ) * N := by
    refine le_trans ?_ (mul_le_mul_of_nonneg_left hlow (two_zpow_pos _).le)
    rw [← zpow_add₀ (by norm_num)]
    exact zpow_le_zpow_right₀ (by norm_num) (by omega)
  push_cast at herr'
  rw [hdet] at herr'
  dsimp only at hweights
  generalize |(d : ℝ) - V3.dot (realPoint c) ⟨fx, fy, fz⟩| = T1 at *
  generalize |V3.dot (realPoint c) ⟨fx, fy, fz⟩ - N| = T2 at *
  generalize |V3.dot (realPoint c) ⟨fx, fy, fz⟩| = T4 at *
  generalize |(d : ℝ) - N| = T3 at *
  generalize (2 : ℝ) ^ (2 * s) = u at *
  generalize (2 : ℝ) ^ (-1000 : ℤ) = τ at *
  have e : (4 * (|(fx : ℝ)| * (1125899906842624 * u)) + 5 * (|(fy : ℝ)| * (1125899906842624 * u)) + 5 * (|(fz : ℝ)| * (1125899906842624 * u)))
      = 1125899906842624 * (u * (4 * |(fx : ℝ)| + 5 * |(fy : ℝ)| + 5 * |(fz : ℝ)|)) := by ring
  rw [e] at herr'
  generalize u * (4 * |(fx : ℝ)| + 5 * |(fy : ℝ)| + 5 * |(fz : ℝ)|) = Q at *
  norm_num at hnear herr' hweights hsmall ⊢
  linarith

/-- C91: every triangle of the grid is read back as it was when twice its area is at least 2^-50, and turned over when it is at most 2^-53. -/
theorem C91_grid_orientation_partial (o : SumOrder) (s : ℤ) (h1 : -149 ≤ s) (h2 : s ≤ 100) (co : List (V3 ℚ)) (hco : ∀ p ∈ co, ScaledPoint s (2 ^ 24) p) (a b c : Nat) (ha : a < co.length)
    (hb : b < co.length) (hc : c < co.length)  :
    (2 ^ (-50 : ℤ) ≤ area2 co[a] co[b] co[c] → storedD o (co.map V3.toDbl) ⟨[a, b, c]⟩ = ⟨[a, b, c]⟩) ∧
    (area2 co[a] co[b] co[c] ≤ 2 ^ (-53 : ℤ) → storedD o (co.map V3.toDbl) ⟨[a, b, c]⟩ = ⟨[a, c, b]⟩) := by
  have P : ∀ {i} (hi : i < co.length), ptD (co.map V3.toDbl) i = co[i].toDbl := by
    intro i hi
    simp [ptD, hi]
  have e : storedD o (co.map V3.toDbl) ⟨[a, b, c]⟩ = Face.ofTriple a b c (keptD o co[a].toDbl co[b].toDbl co[c].toDbl) := by
    rw [← P ha, ← P hb, ← P hc]; rfl
  rw [e]
  unfold keptD
  have ga := hco _ (List.getElem_mem ha)
  have gb := hco _ (List.getElem_mem hb)
  have gc := hco _ (List.getElem_mem hc)
  by_cases h0 : Collinear3 (realPoint co[a]) (realPoint co[b]) (realPoint co[c])
  · have hz : area2 co[a] co[b] co[c] = 0 := by
      unfold area2
      rw [show V3.cross (V3.sub (realPoint co[b]) (realPoint co[a])) (V3.sub (realPoint co[c]) (realPoint co[b])) = V3.zero from h0]
      simp [V3.norm, V3.dot, V3.zero]
    have hn := (C89_grid_partial o s (by omega) (by omega) _ _ _ ga gb gc).1.1 h0
    rw [hn, hz]
    constructor
    · intro h
      exact absurd h (not_le.2 (two_zpow_pos _))
    · intro _
      rw [det_nan _ _ (toFloat_nan (.inl rfl))]
      rfl
  · obtain ⟨d, hd, herr⟩ := C91_grid_determinant_partial o s h1 h2 _ _ _ ga gb gc h0
    rw [hd]
    generalize area2 co[a] co[b] co[c] = A at *
    have lt : (Dbl.fin (2 ^ (-52 : ℤ))).lt (.fin d) = decide ((2 : ℚ) ^ (-52 : ℤ) < d) := rfl
    have hdr : (2 : ℚ) ^ (-52 : ℤ) < d ↔ (2 : ℝ) ^ (-52 : ℤ) < d := by rw [← zpow_cast (K := ℝ), Rat.cast_lt]
    have herr' := abs_le.1 herr
    rw [lt]
    constructor
    · intro h
      rw [decide_eq_true (hdr.2 ?_)]
      · rfl
      · norm_num at h herr' ⊢
        linarith
    · intro h
      rw [decide_eq_false (hdr.not.2 ?_)]
      · rfl
      · norm_num at h herr' ⊢
        linarith

/-- C91, the part that holds: on a grid (integer coordinates up to 2^24 in a unit that is a power of two), when twice the area of every triangle is at least 2^-50, the mesh is read back as it
was. Missing: coordinates with more digits than a float has, tiny triangles, polygons. -/
theorem C91_grid_triangles_partial (o : SumOrder) (s : ℤ) (h1 : -149 ≤ s) (h2 : s ≤ 100) (name : Text) (ps : List (V3 ℚ)) (fs : List Face) (hps : ∀ p ∈ ps, ScaledPoint s (2 ^ 24) p)
    (hfit : Fits3dsD (dmesh name ps fs)) (hv : ValidD (dmesh name ps fs)) (h3 : ∀ f ∈ fs, f.degree = 3) (hname : '\x00' ∉ name)
    (harea : ∀ f ∈ fs, 2 ^ (-50 : ℤ) ≤ area2 (pt ps (f.points.getD 0 0)) (pt ps (f.points.getD 1 0)) (pt ps (f.points.getD 2 0))) :
    ∃ d, (dmesh name ps fs).to3ds o = .ok d ∧ DMesh.of3ds d = .ok (dmesh name ps fs) := by
  obtain ⟨d, hd, hr⟩ := C91_shape o (dmesh name ps fs) hfit hv (triangles_convex o _ hv h3)
  refine ⟨d, hd, ?_⟩
  rw [hr]
  have e1 : cName (dmesh name ps fs).name = name := cName_self hname
  have e2 : (dmesh name ps fs).points.map V3.toFloat = ps.map V3.toDbl := by
    show (ps.map V3.toDbl).map V3.toFloat = _
    rw [List.map_map]
    apply List.map_congr_left
    intro p hp
    exact grid_point_toFloat h1 h2 (hps p hp)
  have e3 : (dmesh name ps fs).faces.map (storedD o (dmesh name ps fs).points) = fs := by
    conv_rhs => rw [← List.map_id fs]
    apply List.map_congr_left
    intro f hf
    have hl := h3 f hf
    have hval := (hv f hf).2.2
    have har := harea f hf
    unfold Face.degree at hl
    obtain ⟨p⟩ := f
    match p, hl with
    | [a, b, c], _ =>
      have ha : a < ps.length := by simpa [dmesh] using hval a (by simp)
      have hb : b < ps.length := by simpa [dmesh] using hval b (by simp)
      have hc : c < ps.length := by simpa [dmesh] using hval c (by simp)
      have P : ∀ {i} (hi : i < ps.length), pt ps i = ps[i] := by
        intro i hi
        simp [pt, hi]
      refine (C91_grid_orientation_partial o s h1 h2 ps hps a b c ha hb hc).1 ?_
      rw [← P ha, ← P hb, ← P hc]
      exact har
  have e4 : ((dmesh name ps fs).faces.map fun f => f.degree - 3).sum = 0 := by
    have : ((dmesh name ps fs).faces.map fun f => f.degree - 3) = fs.map fun _ => 0 := by
      apply List.map_congr_left
      intro f hf
      rw [h3 f hf]
    rw [this]; simp
  rw [e1, e2, e3, e4, List.replicate_zero, List.append_nil]
  rfl

/-- C91: on a grid whose unit is a power of two from 2^-25 on, a mesh of triangles that are not flat is read back as it was. -/
theorem C91_grid_partial (o : SumOrder) (s : ℤ) (h1 : -25 ≤ s) (h2 : s ≤ 100) (name : Text) (ps : List (V3 ℚ)) (fs : List Face) (hps : ∀ p ∈ ps, ScaledPoint s (2 ^ 24) p)
    (hfit : Fits3dsD (dmesh name ps fs)) (hv : ValidD (dmesh name ps fs)) (h3 : ∀ f ∈ fs, f.degree = 3) (hname : '\x00' ∉ name)
    (hflat : ∀ f ∈ fs, ¬ Collinear3 (realPoint (pt ps (f.points.getD 0 0))) (realPoint (pt ps (f.points.getD 1 0))) (realPoint (pt ps (f.points.getD 2 0)))) :
    ∃ d, (dmesh name ps fs).to3ds o = .ok d ∧ DMesh.of3ds d = .ok (dmesh name ps fs) := by
  have G : ∀ i, ScaledPoint s (2 ^ 24) (pt ps i) := by
    intro i
    by_cases hi : i < ps.length
    · have : pt ps i = ps[i] := by simp [pt, hi]
      rw [this]
      exact hps _ (List.getElem_mem hi)
    · have : pt ps i = ⟨0, 0, 0⟩ := by simp [pt, not_lt.1 hi]; try rfl
      rw [this]
      exact ⟨⟨0, by norm_num, by norm_num⟩, ⟨0, by norm_num, by norm_num⟩, ⟨0, by norm_num, by norm_num⟩⟩
  refine C91_grid_triangles_partial o s (by omega) h2 name ps fs hps hfit hv h3 hname ?_
  intro f hf
  refine le_trans ?_ (grid_area (G _) (G _) (G _) (hflat f hf))
  exact zpow_le_zpow_right₀ (by norm_num) (by omega)

/-- A needle of 16777216 metres that is one metre wide: its two triangles come back as they were. -/
def needle : List (V3 ℚ) := [⟨0, 0, 5⟩, ⟨16777216, 0, 5⟩, ⟨16777216, 1, 5⟩, ⟨0, 1, 5⟩]

example (o : SumOrder) : ∃ d, (dmesh "needle".toList needle [⟨[0, 1, 2]⟩, ⟨[0, 2, 3]⟩]).to3ds o = .ok d ∧
    DMesh.of3ds d = .ok (dmesh "needle".toList needle [⟨[0, 1, 2]⟩, ⟨[0, 2, 3]⟩]) := by
  have g : ∀ n : ℤ, |n| ≤ 2 ^ 24 → Scaled 0 (2 ^ 24) (n : ℚ) := fun n hn => ⟨n, hn, by simp⟩
  refine C91_grid_partial o 0 (by norm_num) (by norm_num) _ _ _ ?_ ?_ ?_ ?_ ?_ ?_
  · intro p hp
    simp only [needle, List.mem_cons, List.not_mem_nil, or_false] at hp
    rcases hp with rfl | rfl | rfl | rfl
    · exact ⟨by simpa using g 0 (by norm_num), by simpa using g 0 (by norm_num), by simpa using g 5 (by norm_num)⟩
    · exact ⟨by simpa using g 16777216 (by norm_num), by simpa using g 0 (by norm_num), by simpa using g 5 (by norm_num)⟩
    · exact ⟨by simpa using g 16777216 (by norm_num), by simpa using g 1 (by norm_num), by simpa using g 5 (by norm_num)⟩
    · exact ⟨by simpa using g 0 (by norm_num), by simpa using g 1 (by norm_num), by simpa using g 5 (by norm_num)⟩
  · exact ⟨by decide, by show ([_, _, _, _] : List (V3 Dbl)).length < 65536; simp⟩
  · intro f hf
    simp only [dmesh, List.mem_cons, List.not_mem_nil, or_false] at hf
    rcases hf with rfl | rfl <;> simp [Face.degree, dmesh, needle]
  · simp [Face.degree]
  · decide
  · intro f hf
    simp only [List.mem_cons, List.not_mem_nil, or_false] at hf
    rcases hf with rfl | rfl <;> simp [Collinear3, realPoint, pt, needle, V3.cross, V3.sub, V3.zero]

end City.Props
