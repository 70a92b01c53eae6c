import Verif.Lemmas.VecDbl
import Verif.Lemmas.RasterDbl
import Mathlib.Tactic.Positivity
/-!
Propagation of rounding errors: `App k B d x` says that the double `d` is finite and within `k` units of `2^-52 B` of `x`, and `|x| ≤ B`.
-/
set_option linter.unusedSectionVars false
set_option exponentiation.threshold 2000
namespace City

/-- `d` is finite, `|x| ≤ B` and `|d - x| ≤ k 2^-52 B`. -/
def App (k B : ℚ) (d : Dbl) (x : ℚ) : Prop := |x| ≤ B ∧ ∃ q, d = .fin q ∧ |q - x| ≤ k * 2 ^ (-52 : ℤ) * B

theorem App.mono {k k' B : ℚ} {d : Dbl} {x : ℚ} (h : App k B d x) (hk : k ≤ k') : App k' B d x := by
  obtain ⟨h1, q, h2, h3⟩ := h
  have hB : 0 ≤ B := (abs_nonneg x).trans h1
  exact ⟨h1, q, h2, h3.trans (mul_le_mul_of_nonneg_right (mul_le_mul_of_nonneg_right hk (two_zpow_pos _).le) hB)⟩

theorem fl_abs_rel' (x : ℚ) : |fl x - x| ≤ 2 ^ (-53 : ℤ) * |x| + 2 ^ (-1075 : ℤ) := by
  have := fl_abs_rel x
  rwa [Rat.cast_id] at this

/-- A number that is not large is not rounded to infinity. -/
theorem fl_finite {x B : ℚ} (h : |x| ≤ B) (hB : B ≤ 2 ^ (1000 : ℤ)) : |fl x| < 2 ^ 1024 := by
  have b : Bits (2 ^ (1000 : ℤ)) := ⟨1, 1000, by norm_num, by norm_num, by norm_num⟩
  have h' := abs_le.1 (h.trans hB)
  have h1 : fl x ≤ 2 ^ (1000 : ℤ) := fl_le b (by rw [Rat.cast_id]; exact h'.2)
  have h2 : -2 ^ (1000 : ℤ) ≤ fl x := le_fl b.neg (by rw [Rat.cast_id]; exact h'.1)
  refine lt_of_le_of_lt (abs_le.2 ⟨h2, h1⟩) ?_
  rw [← zpow_natCast]
  exact zpow_lt_zpow_right₀ (by norm_num) (by norm_num)

theorem App.add {k B C : ℚ} {d e : Dbl} {x y : ℚ} (h : App k B d x) (h' : App k C e y) (hk0 : 0 ≤ k) (hk : k ≤ 1024) (hB : B + C ≤ 2 ^ (999 : ℤ))
    (hlow : 2 ^ (-1000 : ℤ) ≤ B + C) : App (k + 1) (B + C) (d.add e) (x + y) := by
  obtain ⟨h1, q, rfl, h3⟩ := h
  obtain ⟨g1, r, rfl, g3⟩ := h'
  have hs : |x + y| ≤ B + C := (abs_add_le x y).trans (add_le_add h1 g1)
  have hqr : |q + r - (x + y)| ≤ k * 2 ^ (-52 : ℤ) * (B + C) := by
    have := abs_add_le (q - x) (r - y)
    rw [show q - x + (r - y) = q + r - (x + y) by ring] at this
    refine this.trans ?_
    rw [mul_add]; exact add_le_add h3 g3
  have hBC : 0 ≤ B + C := (abs_nonneg _).trans hs
  have hk2 : k * 2 ^ (-52 : ℤ) * (B + C) ≤ 2 ^ (-42 : ℤ) * (B + C) := by
    refine mul_le_mul_of_nonneg_right ?_ hBC
    calc k * 2 ^ (-52 : ℤ) ≤ 1024 * 2 ^ (-52 : ℤ) := mul_le_mul_of_nonneg_right hk (two_zpow_pos _).le
      _ = 2 ^ (-42 : ℤ) := by norm_num
  have hq : |q + r| ≤ (1 + 2 ^ (-42 : ℤ)) * (B + C) := by
    have := abs_add_le (q + r - (x + y)) (x + y)
    rw [sub_add_cancel] at this
    linarith
  have hfin : |fl (q + r)| < 2 ^ 1024 := by
    refine fl_finite hq ?_
    have : (2 : ℚ) ^ (1000 : ℤ) = 2 * 2 ^ (999 : ℤ) := by rw [show (1000 : ℤ) = 1 + 999 by norm_num, zpow_add₀ (by norm_num), zpow_one]
    rw [this]
    have : (1 : ℚ) + 2 ^ (-42 : ℤ) ≤ 2 := by norm_num
    exact mul_le_mul this hB hBC (by norm_num)
  refine ⟨hs, fl (q + r), by rw [Dbl.add_fin, Dbl.ofExact_eq hfin], ?_⟩
  have hr := fl_abs_rel' (q + r)
  have ht := abs_sub_le (fl (q + r)) (q + r) (x + y)
  have hu : (2 : ℚ) ^ (-1075 : ℤ) ≤ 2 ^ (-60 : ℤ) * (B + C) := by
    refine le_trans ?_ (mul_le_mul_of_nonneg_left hlow (two_zpow_pos _).le)
    rw [← zpow_add₀ (by norm_num)]
    exact zpow_le_zpow_right₀ (by norm_num) (by norm_num)
  generalize |fl (q + r) - (q + r)| = T at *
  generalize |fl (q + r) - (x + y)| = T2 at *
  generalize |q + r - (x + y)| = T3 at *
  generalize |q + r| = T4 at *
  generalize (2 : ℚ) ^ (-1075 : ℤ) = w at *
  norm_num at hr hqr hk2 hq hu ⊢
  nlinarith

theorem App.neg {k B : ℚ} {d : Dbl} {x : ℚ} (h : App k B d x) : App k B d.neg (-x) := by
  obtain ⟨h1, q, rfl, h3⟩ := h
  exact ⟨by rw [abs_neg]; exact h1, -q, rfl, by rw [← neg_sub', abs_neg]; exact h3⟩

theorem App.sub {k B C : ℚ} {d e : Dbl} {x y : ℚ} (h : App k B d x) (h' : App k C e y) (hk0 : 0 ≤ k) (hk : k ≤ 1024) (hB : B + C ≤ 2 ^ (999 : ℤ))
    (hlow : 2 ^ (-1000 : ℤ) ≤ B + C) : App (k + 1) (B + C) (d.sub e) (x - y) := by
  rw [sub_eq_add_neg]
  exact h.add h'.neg hk0 hk hB hlow

theorem App.mul {k l B C : ℚ} {d e : Dbl} {x y : ℚ} (h : App k B d x) (h' : App l C e y) (hk0 : 0 ≤ k) (hk : k ≤ 1024) (hl0 : 0 ≤ l) (hl : l ≤ 1024)
    (hB : B * C ≤ 2 ^ (999 : ℤ)) (hlow : 2 ^ (-1000 : ℤ) ≤ B * C) : App (k + l + 1) (B * C) (d.mul e) (x * y) := by
  obtain ⟨h1, q, rfl, h3⟩ := h
  obtain ⟨g1, r, rfl, g3⟩ := h'
  have hB0 : 0 ≤ B := (abs_nonneg _).trans h1
  have hC0 : 0 ≤ C := (abs_nonneg _).trans g1
  have hs : |x * y| ≤ B * C := by rw [abs_mul]; exact mul_le_mul h1 g1 (abs_nonneg _) hB0
  have hBC : 0 ≤ B * C := mul_nonneg hB0 hC0
  have hqr : |q * r - x * y| ≤ (k + l) * 2 ^ (-52 : ℤ) * (B * C) + 2 ^ (-84 : ℤ) * (B * C) := by
    have e1 : q * r - x * y = (q - x) * y + x * (r - y) + (q - x) * (r - y) := by ring
    rw [e1]
    refine (abs_add_three _ _ _).trans ?_
    rw [abs_mul, abs_mul, abs_mul]
    have m1 : |q - x| * |y| ≤ k * 2 ^ (-52 : ℤ) * B * C := mul_le_mul h3 g1 (abs_nonneg _) (by positivity)
    have m2 : |x| * |r - y| ≤ B * (l * 2 ^ (-52 : ℤ) * C) := mul_le_mul h1 g3 (abs_nonneg _) hB0
    have m3 : |q - x| * |r - y| ≤ k * 2 ^ (-52 : ℤ) * B * (l * 2 ^ (-52 : ℤ) * C) := mul_le_mul h3 g3 (abs_nonneg _) (by positivity)
    have m4 : k * 2 ^ (-52 : ℤ) * B * (l * 2 ^ (-52 : ℤ) * C) ≤ 2 ^ (-84 : ℤ) * (B * C) := by
      have : k * l ≤ 1024 * 1024 := mul_le_mul hk hl hl0 (by norm_num)
      calc k * 2 ^ (-52 : ℤ) * B * (l * 2 ^ (-52 : ℤ) * C) = k * l * (2 ^ (-52 : ℤ) * 2 ^ (-52 : ℤ)) * (B * C) := by ring
        _ ≤ 1024 * 1024 * (2 ^ (-52 : ℤ) * 2 ^ (-52 : ℤ)) * (B * C) := mul_le_mul_of_nonneg_right (mul_le_mul_of_nonneg_right this (by positivity)) hBC
        _ = 2 ^ (-84 : ℤ) * (B * C) := by norm_num
    calc _ ≤ k * 2 ^ (-52 : ℤ) * B * C + B * (l * 2 ^ (-52 : ℤ) * C) + 2 ^ (-84 : ℤ) * (B * C) := add_le_add (add_le_add m1 m2) (m3.trans m4)
      _ = _ := by ring
  have hk2 : (k + l) * 2 ^ (-52 : ℤ) * (B * C) ≤ 2 ^ (-41 : ℤ) * (B * C) := by
    refine mul_le_mul_of_nonneg_right ?_ hBC
    calc (k + l) * 2 ^ (-52 : ℤ) ≤ 2048 * 2 ^ (-52 : ℤ) := mul_le_mul_of_nonneg_right (by linarith) (two_zpow_pos _).le
      _ = 2 ^ (-41 : ℤ) := by norm_num
  have hq : |q * r| ≤ (1 + 2 ^ (-40 : ℤ)) * (B * C) := by
    have := abs_add_le (q * r - x * y) (x * y)
    rw [sub_add_cancel] at this
    have e : (2 : ℚ) ^ (-41 : ℤ) * (B * C) + 2 ^ (-84 : ℤ) * (B * C) ≤ 2 ^ (-40 : ℤ) * (B * C) := by
      rw [← add_mul]; exact mul_le_mul_of_nonneg_right (by norm_num) hBC
    linarith
  have hfin : |fl (q * r)| < 2 ^ 1024 := by
    refine fl_finite hq ?_
    have : (2 : ℚ) ^ (1000 : ℤ) = 2 * 2 ^ (999 : ℤ) := by rw [show (1000 : ℤ) = 1 + 999 by norm_num, zpow_add₀ (by norm_num), zpow_one]
    rw [this]
    have : (1 : ℚ) + 2 ^ (-40 : ℤ) ≤ 2 := by norm_num
    exact mul_le_mul this hB hBC (by norm_num)
  refine ⟨hs, fl (q * r), by rw [Dbl.mul_fin, Dbl.ofExact_eq hfin], ?_⟩
  have hr := fl_abs_rel' (q * r)
  have ht := abs_sub_le (fl (q * r)) (q * r) (x * y)
  have hu : (2 : ℚ) ^ (-1075 : ℤ) ≤ 2 ^ (-60 : ℤ) * (B * C) := by
    refine le_trans ?_ (mul_le_mul_of_nonneg_left hlow (two_zpow_pos _).le)
    rw [← zpow_add₀ (by norm_num)]
    exact zpow_le_zpow_right₀ (by norm_num) (by norm_num)
  generalize B * C = E at *
  generalize |fl (q * r) - q * r| = T at *
  generalize |fl (q * r) - x * y| = T2 at *
  generalize |q * r - x * y| = T3 at *
  generalize |q * r| = T4 at *
  generalize (2 : ℚ) ^ (-1075 : ℤ) = w at *
  norm_num at hr hqr hk2 hq hu ⊢
  nlinarith

end City
