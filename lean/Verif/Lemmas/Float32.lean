import Verif.Model.Mesh3dsDbl
import Verif.Lemmas.Float
/-!
Rounding to single precision.
-/
set_option linter.unusedSectionVars false
namespace City

theorem fl32_zero : fl32 0 = 0 := by
  unfold fl32
  have : rne ((0 : ℚ) / 2 ^ lastBit32 0) = 0 := by rw [zero_div]; exact_mod_cast rne_int (K := ℚ) 0
  rw [this]; simp

theorem lastBit32_ge (x : ℚ) : -149 ≤ lastBit32 x := le_max_right _ _

/-- Numbers with 24 binary digits are not rounded. -/
theorem fl32_exact {n f : ℤ} (hn : |n| ≤ 2 ^ 24) (hf : -149 ≤ f) : fl32 ((n : ℚ) * 2 ^ f) = n * 2 ^ f := by
  by_cases h0 : n = 0
  · subst h0; simp [fl32_zero]
  have hx : (n : ℚ) * 2 ^ f ≠ 0 := mul_ne_zero (by exact_mod_cast h0) (two_zpow_pos f).ne'
  have h1 := log_le_abs hx
  have key : ∀ (k g : ℤ), (n : ℚ) * 2 ^ f = k * 2 ^ g → lastBit32 ((n : ℚ) * 2 ^ f) ≤ g → fl32 ((n : ℚ) * 2 ^ f) = n * 2 ^ f := by
    intro k g e h
    unfold fl32
    generalize lastBit32 ((n : ℚ) * 2 ^ f) = b at h
    rw [e]
    have h1 : (k : ℚ) * 2 ^ g / 2 ^ b = ((k * 2 ^ (g - b).toNat : ℤ) : ℚ) := by
      rw [mul_div_assoc, ← zpow_sub₀ (by norm_num)]
      push_cast
      rw [← zpow_natCast, Int.toNat_of_nonneg (by omega)]
    rw [h1, rne_int]
    push_cast
    rw [← zpow_natCast, Int.toNat_of_nonneg (by omega), mul_assoc, ← zpow_add₀ (by norm_num)]
    congr 2
    omega
  by_cases hlt : |n| < 2 ^ 24
  · refine key n f rfl ?_
    unfold lastBit32
    refine max_le ?_ hf
    have h2 : |(n : ℚ) * 2 ^ f| < 2 ^ ((24 : ℕ) : ℤ) * 2 ^ f := by
      rw [abs_mul, abs_of_pos (two_zpow_pos (K := ℚ) f)]
      apply mul_lt_mul_of_pos_right _ (two_zpow_pos f)
      rw [zpow_natCast]
      exact_mod_cast hlt
    rw [← zpow_add₀ (by norm_num)] at h2
    have := (zpow_lt_zpow_iff_right₀ (by norm_num : (1 : ℚ) < 2)).1 (lt_of_le_of_lt h1 h2)
    push_cast at this
    omega
  · have hn' : |n| = 2 ^ 24 := by omega
    have hs : ∃ k : ℤ, n = 2 * k ∧ |k| = 2 ^ 23 := by
      rcases abs_choice n with h | h
      · exact ⟨2 ^ 23, by omega, by norm_num⟩
      · exact ⟨-2 ^ 23, by omega, by norm_num⟩
    obtain ⟨k, rfl, hk⟩ := hs
    refine key k (f + 1) (by push_cast; rw [zpow_add_one₀ (by norm_num)]; ring) ?_
    unfold lastBit32
    refine max_le ?_ (by omega)
    have h2 : |((2 * k : ℤ) : ℚ) * 2 ^ f| < 2 ^ ((25 : ℕ) : ℤ) * 2 ^ f := by
      rw [abs_mul, abs_of_pos (two_zpow_pos (K := ℚ) f)]
      apply mul_lt_mul_of_pos_right _ (two_zpow_pos f)
      rw [zpow_natCast]
      have : |2 * k| < 2 ^ 25 := by rw [hn']; norm_num
      exact_mod_cast this
    rw [← zpow_add₀ (by norm_num)] at h2
    have := (zpow_lt_zpow_iff_right₀ (by norm_num : (1 : ℚ) < 2)).1 (lt_of_le_of_lt h1 h2)
    generalize Int.log 2 |((2 * k : ℤ) : ℚ) * 2 ^ f| = g at this ⊢
    push_cast at this
    omega

/-- The error of one rounding. -/
theorem fl32_err (x : ℚ) : |fl32 x - x| ≤ 2 ^ lastBit32 x / 2 := by
  have hp := two_zpow_pos (K := ℚ) (lastBit32 x)
  have h := rne_near (x / 2 ^ lastBit32 x)
  have e : fl32 x - x = ((rne (x / 2 ^ lastBit32 x) : ℚ) - x / 2 ^ lastBit32 x) * 2 ^ lastBit32 x := by
    unfold fl32
    rw [sub_mul, div_mul_cancel₀ _ hp.ne']
  rw [e, abs_mul, abs_of_pos hp]
  nlinarith

/-- The error of a rounding, everywhere. -/
theorem fl32_abs_rel (x : ℚ) : |fl32 x - x| ≤ 2 ^ (-24 : ℤ) * |x| + 2 ^ (-150 : ℤ) := by
  by_cases h0 : x = 0
  · subst h0
    rw [fl32_zero]
    simp
  refine (fl32_err x).trans ?_
  have h1 := log_le_abs h0
  rcases le_or_gt (-126) (Int.log 2 |x|) with hl | hl
  · have hb : lastBit32 x = Int.log 2 |x| - 23 := by unfold lastBit32; omega
    rw [hb]
    refine le_add_of_le_of_nonneg ?_ (two_zpow_pos _).le
    calc (2 : ℚ) ^ (Int.log 2 |x| - 23) / 2 = 2 ^ (-24 : ℤ) * 2 ^ (Int.log 2 |x|) := by
          rw [div_eq_iff (by norm_num), ← zpow_add₀ (by norm_num), ← zpow_add_one₀ (by norm_num)]; congr 1; ring
      _ ≤ _ := mul_le_mul_of_nonneg_left h1 (two_zpow_pos _).le
  · have hb : lastBit32 x = -149 := by unfold lastBit32; omega
    rw [hb]
    have e : (2 : ℚ) ^ (-149 : ℤ) / 2 = 2 ^ (-150 : ℤ) := by
      rw [div_eq_iff (by norm_num), ← zpow_add_one₀ (by norm_num)]; norm_num
    rw [e]
    exact le_add_of_nonneg_left (mul_nonneg (two_zpow_pos _).le (abs_nonneg _))

/-- The rounded number has 24 binary digits. -/
theorem fl32_bits (x : ℚ) : ∃ n f : ℤ, |n| ≤ 2 ^ 24 ∧ -149 ≤ f ∧ fl32 x = n * 2 ^ f := by
  refine ⟨rne (x / 2 ^ lastBit32 x), lastBit32 x, ?_, lastBit32_ge x, rfl⟩
  have h : |x| / 2 ^ lastBit32 x ≤ 2 ^ 24 := by
    rw [div_le_iff₀ (two_zpow_pos _)]
    refine (abs_lt_log x).le.trans ?_
    have : Int.log 2 |x| - 23 ≤ lastBit32 x := le_max_left _ _
    calc (2 : ℚ) ^ (Int.log 2 |x| + 1) ≤ 2 ^ (24 + lastBit32 x) := zpow_le_zpow_right₀ (by norm_num) (by omega)
      _ = 2 ^ 24 * 2 ^ lastBit32 x := by rw [zpow_add₀ (by norm_num)]; norm_num
  have h' : |x / 2 ^ lastBit32 x| ≤ 2 ^ 24 := by rw [abs_div, abs_of_pos (two_zpow_pos (K := ℚ) _)]; exact h
  have h'' := abs_le.1 h'
  rw [abs_le]
  constructor
  · have := rne_mono (K := ℚ) (x := ((-2 ^ 24 : ℤ) : ℚ)) (y := x / 2 ^ lastBit32 x) (by push_cast; exact h''.1)
    rwa [rne_int] at this
  · have := rne_mono (K := ℚ) (x := x / 2 ^ lastBit32 x) (y := ((2 ^ 24 : ℤ) : ℚ)) (by push_cast; exact h''.2)
    rwa [rne_int] at this

/-- Rounding twice is rounding once. -/
theorem fl32_idem (x : ℚ) : fl32 (fl32 x) = fl32 x := by
  obtain ⟨n, f, h1, h2, h3⟩ := fl32_bits x
  rw [h3, fl32_exact h1 h2]

namespace Dbl

theorem toFloat_fin {q : ℚ} (h : |fl32 q| < 2 ^ 128) : (fin q).toFloat = fin (fl32 q) := by
  have := abs_lt.1 h
  show (if (2 : ℚ) ^ 128 ≤ fl32 q then pinf else if fl32 q ≤ -2 ^ 128 then ninf else fin (fl32 q)) = _
  rw [if_neg (not_le.2 this.2), if_neg (not_le.2 this.1)]

theorem toFloat_idem (d : Dbl) : d.toFloat.toFloat = d.toFloat := by
  cases d <;> try rfl
  case fin q =>
    unfold toFloat
    dsimp only
    by_cases h1 : (2 : ℚ) ^ 128 ≤ fl32 q
    · rw [if_pos h1]
    · rw [if_neg h1]
      by_cases h2 : fl32 q ≤ -2 ^ 128
      · rw [if_pos h2]
      · rw [if_neg h2]
        dsimp only
        rw [fl32_idem, if_neg h1, if_neg h2]

end Dbl

theorem toFloat_toFloat (p : V3 Dbl) : p.toFloat.toFloat = p.toFloat := by
  unfold V3.toFloat
  dsimp only
  rw [Dbl.toFloat_idem, Dbl.toFloat_idem, Dbl.toFloat_idem]

end City
