import Verif.Model.Float
import Mathlib.Tactic.Linarith
import Mathlib.Tactic.Ring
import Mathlib.Tactic.NormNum
import Mathlib.Tactic.Positivity
/-!
Facts about rounding to doubles.
-/
set_option linter.unusedSectionVars false
set_option exponentiation.threshold 2000
namespace City

section
variable {K : Type} [Field K] [LinearOrder K] [IsStrictOrderedRing K] [FloorRing K]

theorem rne_cases (x : K) : (rne x = ⌊x⌋ ∧ x - ⌊x⌋ ≤ 1 / 2) ∨ (rne x = ⌊x⌋ + 1 ∧ 1 / 2 ≤ x - ⌊x⌋) := by
  unfold rne
  split_ifs with h1 h2 h3
  · exact .inl ⟨rfl, h1.le⟩
  · exact .inr ⟨rfl, h2.le⟩
  · exact .inl ⟨rfl, not_lt.1 h2⟩
  · exact .inr ⟨rfl, not_lt.1 h1⟩

theorem rne_near (x : K) : |(rne x : K) - x| ≤ 1 / 2 := by
  have h1 := Int.floor_le x
  have h2 := Int.lt_floor_add_one x
  rw [abs_le]
  rcases rne_cases x with ⟨h, h'⟩ | ⟨h, h'⟩
  · rw [h]; constructor <;> linarith
  · rw [h]; push_cast; constructor <;> linarith

theorem rne_int (n : ℤ) : rne (n : K) = n := by
  unfold rne
  rw [Int.floor_intCast, sub_self, if_pos (by norm_num)]

theorem rne_mono {x y : K} (h : x ≤ y) : rne x ≤ rne y := by
  have hf : ⌊x⌋ ≤ ⌊y⌋ := Int.floor_mono h
  rcases hf.eq_or_lt with e | l
  · unfold rne
    rw [← e]
    split_ifs <;> first | omega | (exfalso; linarith)
  · rcases rne_cases x with ⟨hx, _⟩ | ⟨hx, _⟩ <;> rcases rne_cases y with ⟨hy, _⟩ | ⟨hy, _⟩ <;> omega

theorem rne_neg (x : K) : rne (-x) = - rne x := by
  by_cases hi : x = ⌊x⌋
  · rw [hi, show (-((⌊x⌋ : ℤ) : K)) = ((-⌊x⌋ : ℤ) : K) by push_cast; rfl, rne_int, rne_int]
  · have h1 := lt_of_le_of_ne (Int.floor_le x) (Ne.symm hi)
    have h2 := Int.lt_floor_add_one x
    have hf : ⌊-x⌋ = -⌊x⌋ - 1 := by
      rw [Int.floor_eq_iff]
      push_cast
      constructor <;> linarith
    unfold rne
    rw [hf]
    push_cast
    split_ifs <;> first | omega | (exfalso; linarith)

theorem two_zpow_pos (k : ℤ) : (0 : K) < 2 ^ k := zpow_pos (by norm_num) k

theorem lastBit_neg (x : K) : lastBit (-x) = lastBit x := by unfold lastBit; rw [abs_neg]

theorem fl_neg (x : K) : fl (-x) = - fl x := by
  unfold fl
  rw [lastBit_neg, neg_div, rne_neg]
  push_cast
  ring

theorem fl_zero : fl (0 : K) = 0 := by
  unfold fl
  rw [zero_div, show (0 : K) = ((0 : ℤ) : K) by simp, rne_int]
  simp

/-- A number with 53 binary digits, none below 2^-1074. -/
def Bits (q : ℚ) : Prop := ∃ m e : ℤ, |m| < 2 ^ 53 ∧ -1074 ≤ e ∧ q = m * 2 ^ e

theorem Bits.neg {q : ℚ} (h : Bits q) : Bits (-q) := by
  obtain ⟨m, e, h1, h2, rfl⟩ := h
  exact ⟨-m, e, by rwa [abs_neg], h2, by push_cast; ring⟩

theorem bits_of_le {m e : ℤ} (hm : |m| ≤ 2 ^ 53) (he : -1074 ≤ e) : Bits ((m : ℚ) * 2 ^ e) := by
  rcases hm.lt_or_eq with h | h
  · exact ⟨m, e, h, he, rfl⟩
  · rcases abs_choice m with c | c
    · rw [c] at h
      refine ⟨2 ^ 52, e + 1, by norm_num, by omega, ?_⟩
      rw [h, zpow_add₀ (by norm_num)]
      norm_num
      ring
    · rw [c] at h
      have h' : m = -2 ^ 53 := by omega
      refine ⟨-2 ^ 52, e + 1, by norm_num, by omega, ?_⟩
      rw [h', zpow_add₀ (by norm_num)]
      norm_num
      ring

theorem log_le_abs {x : K} (h : x ≠ 0) : (2 : K) ^ (Int.log 2 |x|) ≤ |x| := by
  have := Int.zpow_log_le_self (R := K) (b := 2) (by norm_num) (abs_pos.2 h)
  simpa using this

theorem abs_lt_log (x : K) : |x| < (2 : K) ^ (Int.log 2 |x| + 1) := by
  have := Int.lt_zpow_succ_log_self (R := K) (b := 2) (by norm_num) |x|
  simpa using this

theorem lastBit_ge (x : K) : -1074 ≤ lastBit x := le_max_right _ _

theorem abs_lt_lastBit (x : K) : |x| / 2 ^ lastBit x < 2 ^ (53 : ℕ) := by
  rw [div_lt_iff₀ (two_zpow_pos _), ← zpow_natCast, ← zpow_add₀ (by norm_num)]
  refine lt_of_lt_of_le (abs_lt_log x) (zpow_le_zpow_right₀ (by norm_num) ?_)
  have : Int.log 2 |x| - 52 ≤ lastBit x := le_max_left _ _
  push_cast
  omega

theorem fl_bits (x : K) : Bits (fl x) := by
  unfold fl
  refine bits_of_le ?_ (lastBit_ge x)
  have h := abs_lt_lastBit x
  have h2 : |x / 2 ^ lastBit x| ≤ ((2 ^ 53 : ℤ) : K) := by
    rw [abs_div, abs_of_pos (two_zpow_pos (K := K) (lastBit x))]
    exact_mod_cast h.le
  rw [abs_le] at h2 ⊢
  constructor
  · rw [← rne_int (K := K) (-2 ^ 53)]
    exact rne_mono (by push_cast; push_cast at h2; exact h2.1)
  · rw [← rne_int (K := K) (2 ^ 53)]
    exact rne_mono h2.2

theorem zpow_cast (e : ℤ) : (((2 : ℚ) ^ e : ℚ) : K) = 2 ^ e := by push_cast; rfl

/-- If `x` is a multiple of the last digit kept, it is not rounded. -/
theorem fl_of_multiple {n f : ℤ} (h : lastBit ((n : K) * 2 ^ f) ≤ f) : fl ((n : K) * 2 ^ f) = n * 2 ^ f := by
  unfold fl
  generalize lastBit ((n : K) * 2 ^ f) = e at h
  have h1 : (n : K) * 2 ^ f / 2 ^ e = ((n * 2 ^ (f - e).toNat : ℤ) : K) := by
    rw [mul_div_assoc, ← zpow_sub₀ (by norm_num)]
    push_cast
    rw [← zpow_natCast, Int.toNat_of_nonneg (by omega)]
  rw [h1, rne_int]
  push_cast
  rw [← zpow_natCast, Int.toNat_of_nonneg (by omega), mul_assoc, ← zpow_add₀ (by norm_num)]
  congr 2
  omega

theorem lastBit_le {n f : ℤ} (hn : |n| < 2 ^ 53) (hf : -1074 ≤ f) : lastBit ((n : K) * 2 ^ f) ≤ f ∨ n = 0 := by
  by_cases h0 : n = 0
  · exact .inr h0
  left
  unfold lastBit
  refine max_le ?_ hf
  have hx : (n : K) * 2 ^ f ≠ 0 := mul_ne_zero (by exact_mod_cast h0) (two_zpow_pos f).ne'
  have h1 := log_le_abs hx
  have h2 : |(n : K) * 2 ^ f| < 2 ^ ((53 : ℕ) : ℤ) * 2 ^ f := by
    rw [abs_mul, abs_of_pos (two_zpow_pos (K := K) f)]
    apply mul_lt_mul_of_pos_right _ (two_zpow_pos f)
    rw [zpow_natCast]
    exact_mod_cast hn
  rw [← zpow_add₀ (by norm_num)] at h2
  have := (zpow_lt_zpow_iff_right₀ (by norm_num : (1 : K) < 2)).1 (lt_of_le_of_lt h1 h2)
  push_cast at this
  omega

/-- Numbers with 53 binary digits are not rounded. -/
theorem fl_of_bits {q : ℚ} (h : Bits q) : fl ((q : ℚ) : K) = q := by
  obtain ⟨m, e, h1, h2, rfl⟩ := h
  have hc : (((m : ℚ) * 2 ^ e : ℚ) : K) = (m : K) * 2 ^ e := by push_cast; rfl
  rw [hc]
  rcases lastBit_le (K := K) h1 h2 with h | rfl
  · exact fl_of_multiple h
  · simp [fl_zero]

theorem fl_of_bits' {q : ℚ} (h : Bits q) : fl q = q := by
  have := fl_of_bits (K := ℚ) h
  simpa using this

theorem fl_cast (x : K) : ((fl x : ℚ) : K) = rne (x / 2 ^ lastBit x) * 2 ^ lastBit x := by
  unfold fl
  push_cast
  rfl

/-- The error of one rounding. -/
theorem fl_err (x : K) : |((fl x : ℚ) : K) - x| ≤ 2 ^ lastBit x / 2 := by
  have hp := two_zpow_pos (K := K) (lastBit x)
  have h := rne_near (x / 2 ^ lastBit x)
  have e : ((fl x : ℚ) : K) - x = ((rne (x / 2 ^ lastBit x) : K) - x / 2 ^ lastBit x) * 2 ^ lastBit x := by
    rw [fl_cast, sub_mul, div_mul_cancel₀ _ hp.ne']
  rw [e, abs_mul, abs_of_pos hp]
  nlinarith

theorem fl_nonneg {x : K} (h : 0 ≤ x) : 0 ≤ fl x := by
  unfold fl
  have : (0 : ℤ) ≤ rne (x / 2 ^ lastBit x) := by
    have := rne_mono (x := ((0 : ℤ) : K)) (y := x / 2 ^ lastBit x) (by push_cast; exact div_nonneg h (two_zpow_pos _).le)
    rwa [rne_int] at this
  have h' : (0 : ℚ) ≤ rne (x / 2 ^ lastBit x) := by exact_mod_cast this
  exact mul_nonneg h' (two_zpow_pos _).le

theorem fl_nonpos {x : K} (h : x ≤ 0) : fl x ≤ 0 := by
  have := fl_nonneg (x := -x) (by linarith)
  rw [fl_neg] at this
  linarith

theorem lastBit_mono {x y : K} (hx : x ≠ 0) (h : |x| ≤ |y|) : lastBit x ≤ lastBit y := by
  unfold lastBit
  exact max_le_max (by have := Int.log_mono_right (b := 2) (abs_pos.2 hx) h; omega) (le_refl _)

theorem fl_pow {e : ℤ} (h : -1074 ≤ e) : fl ((2 : K) ^ e) = 2 ^ e := by
  have := fl_of_bits (K := K) (q := 2 ^ e) ⟨1, e, by norm_num, h, by simp⟩
  rwa [zpow_cast] at this

/-- Rounding keeps the order, positive numbers. -/
theorem fl_mono_pos {x y : K} (hx : 0 < x) (h : x ≤ y) : fl x ≤ fl y := by
  have hy : 0 < y := lt_of_lt_of_le hx h
  have hb := lastBit_mono (y := y) hx.ne' (by rw [abs_of_pos hx, abs_of_pos hy]; exact h)
  rcases hb.eq_or_lt with e | l
  · unfold fl
    rw [e]
    apply mul_le_mul_of_nonneg_right _ (two_zpow_pos _).le
    exact_mod_cast rne_mono (div_le_div_of_nonneg_right h (two_zpow_pos _).le)
  · -- a power of two is between
    have hl : lastBit y = Int.log 2 |y| - 52 := by
      unfold lastBit at l ⊢
      have := lastBit_ge x
      unfold lastBit at this
      omega
    have h1 : (2 : K) ^ (lastBit y + 52) ≤ y := by
      have := log_le_abs hy.ne'
      rw [abs_of_pos hy] at this
      rw [hl]
      simpa [abs_of_pos hy] using this
    have h2 : x ≤ (2 : K) ^ (lastBit y + 52) := by
      have a := abs_lt_log x
      rw [abs_of_pos hx] at a
      refine a.le.trans (zpow_le_zpow_right₀ (by norm_num) ?_)
      have : Int.log 2 |x| - 52 ≤ lastBit x := le_max_left _ _
      rw [abs_of_pos hx] at this
      omega
    have c1 : fl x ≤ 2 ^ (lastBit y + 52) := by
      have hm : (rne (x / 2 ^ lastBit x) : ℤ) ≤ 2 ^ (lastBit y + 52 - lastBit x).toNat := by
        have := rne_mono (K := K) (x := x / 2 ^ lastBit x) (y := ((2 ^ (lastBit y + 52 - lastBit x).toNat : ℤ) : K)) (by
          push_cast
          rw [← zpow_natCast, Int.toNat_of_nonneg (by omega), zpow_sub₀ (by norm_num)]
          exact div_le_div_of_nonneg_right h2 (two_zpow_pos _).le)
        rwa [rne_int] at this
      unfold fl
      have hm' : (rne (x / 2 ^ lastBit x) : ℚ) ≤ 2 ^ (lastBit y + 52 - lastBit x) := by
        rw [← Int.toNat_of_nonneg (show 0 ≤ lastBit y + 52 - lastBit x by omega), zpow_natCast]
        exact_mod_cast hm
      calc (rne (x / 2 ^ lastBit x) : ℚ) * 2 ^ lastBit x ≤ 2 ^ (lastBit y + 52 - lastBit x) * 2 ^ lastBit x :=
            mul_le_mul_of_nonneg_right hm' (two_zpow_pos _).le
        _ = 2 ^ (lastBit y + 52) := by rw [← zpow_add₀ (by norm_num)]; congr 1; omega
    have c2 : (2 : ℚ) ^ (lastBit y + 52) ≤ fl y := by
      have hm : (2 ^ 52 : ℤ) ≤ rne (y / 2 ^ lastBit y) := by
        have := rne_mono (K := K) (x := ((2 ^ 52 : ℤ) : K)) (y := y / 2 ^ lastBit y) (by
          rw [le_div_iff₀ (two_zpow_pos _)]
          rw [zpow_add₀ (by norm_num)] at h1
          rw [mul_comm] at h1
          norm_num at h1 ⊢
          exact h1)
        rwa [rne_int] at this
      unfold fl
      have hm' : (2 : ℚ) ^ (52 : ℤ) ≤ rne (y / 2 ^ lastBit y) := by
        have : ((2 ^ 52 : ℤ) : ℚ) ≤ ((rne (y / 2 ^ lastBit y) : ℤ) : ℚ) := by exact_mod_cast hm
        refine le_trans (le_of_eq ?_) this
        norm_num
      rw [zpow_add₀ (by norm_num), mul_comm]
      exact mul_le_mul_of_nonneg_right hm' (two_zpow_pos _).le
    exact c1.trans c2

/-- Rounding keeps the order. -/
theorem fl_mono {x y : K} (h : x ≤ y) : fl x ≤ fl y := by
  rcases lt_trichotomy x 0 with hx | rfl | hx
  · rcases lt_or_ge y 0 with hy | hy
    · have := fl_mono_pos (x := -y) (y := -x) (by linarith) (by linarith)
      rw [fl_neg, fl_neg] at this
      linarith
    · exact (fl_nonpos hx.le).trans (fl_nonneg hy)
  · rw [fl_zero]; exact fl_nonneg h
  · exact fl_mono_pos hx h

/-- Numbers with 53 digits bound the rounded value as they bound the exact one. -/
theorem fl_le {x : K} {q : ℚ} (hq : Bits q) (h : x ≤ q) : fl x ≤ q := by
  have := fl_mono h
  rwa [fl_of_bits hq] at this

theorem le_fl {x : K} {q : ℚ} (hq : Bits q) (h : (q : K) ≤ x) : q ≤ fl x := by
  have := fl_mono h
  rwa [fl_of_bits hq] at this

/-- The relative error of a rounding in the normal range. -/
theorem fl_rel {x : K} (h : (2 : K) ^ (-1022 : ℤ) ≤ |x|) : |((fl x : ℚ) : K) - x| ≤ 2 ^ (-53 : ℤ) * |x| := by
  have hx : x ≠ 0 := by
    rintro rfl
    rw [abs_zero] at h
    exact absurd (two_zpow_pos (K := K) (-1022)) (not_lt.2 h)
  refine (fl_err x).trans ?_
  have hl : -1022 ≤ Int.log 2 |x| := by
    have := Int.log_mono_right (b := 2) (two_zpow_pos (K := K) (-1022)) h
    have e := Int.log_zpow (R := K) (b := 2) (by norm_num) (-1022)
    push_cast at e
    rwa [e] at this
  have hb : lastBit x = Int.log 2 |x| - 52 := by unfold lastBit; omega
  rw [hb]
  have := log_le_abs hx
  calc (2 : K) ^ (Int.log 2 |x| - 52) / 2 = 2 ^ (-53 : ℤ) * 2 ^ (Int.log 2 |x|) := by
        rw [div_eq_iff (by norm_num), ← zpow_add₀ (by norm_num), ← zpow_add_one₀ (by norm_num)]; congr 1; ring
    _ ≤ _ := mul_le_mul_of_nonneg_left this (two_zpow_pos _).le

/-- The error of a rounding, everywhere. -/
theorem fl_abs_rel (x : K) : |((fl x : ℚ) : K) - x| ≤ 2 ^ (-53 : ℤ) * |x| + 2 ^ (-1075 : ℤ) := by
  by_cases h : (2 : K) ^ (-1022 : ℤ) ≤ |x|
  · exact (fl_rel h).trans (le_add_of_nonneg_right (two_zpow_pos _).le)
  · by_cases h0 : x = 0
    · subst h0
      rw [fl_zero]
      simp
    push Not at h
    have hl : Int.log 2 |x| < -1022 := by
      have a := lt_of_le_of_lt (log_le_abs h0) h
      exact (zpow_lt_zpow_iff_right₀ (by norm_num : (1 : K) < 2)).1 a
    have hb : lastBit x = -1074 := by unfold lastBit; omega
    refine (fl_err x).trans ?_
    rw [hb]
    have e : (2 : K) ^ (-1074 : ℤ) / 2 = 2 ^ (-1075 : ℤ) := by
      rw [div_eq_iff (by norm_num), ← zpow_add_one₀ (by norm_num)]; norm_num
    rw [e]
    exact le_add_of_nonneg_left (mul_nonneg (two_zpow_pos _).le (abs_nonneg _))

/-- Sterbenz: the difference of numbers of about the same size is exact. -/
theorem sterbenz {x y : ℚ} (hx : Bits x) (hy : Bits y) (h0 : 0 ≤ y) (h1 : y / 2 ≤ x) (h2 : x ≤ 2 * y) : Bits (x - y) := by
  obtain ⟨m, e, m1, e1, rfl⟩ := hx
  obtain ⟨n, f, n1, f1, rfl⟩ := hy
  have key : ∀ (g k : ℤ) (q : ℚ), |k| < 2 ^ 53 → -1074 ≤ g → (∃ c : ℤ, q = c * 2 ^ g) → |q| ≤ |(k : ℚ) * 2 ^ g| → Bits q := by
    rintro g k q hk hg ⟨c, rfl⟩ hle
    refine ⟨c, g, ?_, hg, rfl⟩
    rw [abs_mul, abs_mul] at hle
    have := le_of_mul_le_mul_right hle (abs_pos.2 (two_zpow_pos (K := ℚ) g).ne')
    have h : |c| ≤ |k| := by exact_mod_cast this
    omega
  rcases le_total e f with h | h
  · refine key e m _ m1 e1 ⟨m - n * 2 ^ (f - e).toNat, ?_⟩ ?_
    · push_cast
      rw [← zpow_natCast, Int.toNat_of_nonneg (by omega), sub_mul, mul_assoc, ← zpow_add₀ (by norm_num)]
      congr 3
      omega
    · rw [abs_le, abs_of_nonneg (by linarith : (0 : ℚ) ≤ m * 2 ^ e)]
      constructor <;> linarith
  · refine key f n _ n1 f1 ⟨m * 2 ^ (e - f).toNat - n, ?_⟩ ?_
    · push_cast
      rw [← zpow_natCast, Int.toNat_of_nonneg (by omega), sub_mul, mul_assoc, ← zpow_add₀ (by norm_num)]
      congr 3
      omega
    · rw [abs_le, abs_of_nonneg h0]
      constructor <;> linarith

end
end City
