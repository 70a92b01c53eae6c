import Verif.Lemmas.Dec
import Mathlib.Algebra.Order.Floor.Ring
import Mathlib.Tactic.LinearCombination
/-! Rounding to six significant digits. -/
namespace City

theorem roundEven_near {q : ℚ} (h0 : 0 ≤ q) : |(roundEven q : ℚ) - q| ≤ 1 / 2 := by
  have h1 := Nat.floor_le h0
  have h2 := Nat.lt_floor_add_one q
  unfold roundEven
  simp only
  rw [abs_le]
  split
  · constructor <;> linarith
  · split
    · push_cast; constructor <;> linarith
    · split
      · constructor <;> linarith
      · push_cast; constructor <;> linarith

theorem roundEven_unique {q : ℚ} {n : ℕ} (h0 : 0 ≤ q) (h : |q - n| < 1 / 2) : roundEven q = n := by
  have h1 := roundEven_near h0
  have : |(roundEven q : ℚ) - n| < 1 := by
    have := abs_sub_le (roundEven q : ℚ) q n
    linarith
  have h3 : |((roundEven q : ℤ) - (n : ℤ))| < 1 := by
    exact_mod_cast this
  have := Int.abs_lt_one_iff.1 h3
  omega

theorem roundEven_natCast (n : ℕ) : roundEven (n : ℚ) = n :=
  roundEven_unique (by positivity) (by simp)

theorem roundEven_mono {p q : ℚ} (h : p ≤ q) : roundEven p ≤ roundEven q := by
  have hf : ⌊p⌋₊ ≤ ⌊q⌋₊ := Nat.floor_mono h
  have lo : ∀ r : ℚ, ⌊r⌋₊ ≤ roundEven r := by
    intro r; unfold roundEven; simp only; split_ifs <;> omega
  have hi : ∀ r : ℚ, roundEven r ≤ ⌊r⌋₊ + 1 := by
    intro r; unfold roundEven; simp only; split_ifs <;> omega
  rcases Nat.lt_or_ge ⌊p⌋₊ ⌊q⌋₊ with hlt | hge
  · have := lo q; have := hi p; omega
  · have he : ⌊p⌋₊ = ⌊q⌋₊ := le_antisymm hf hge
    unfold roundEven
    simp only [he]
    split_ifs <;> first | omega | (exfalso; linarith)

/-- The value of the six digits of a positive number. -/
def six (q : ℚ) : ℚ := decVal (sixDigits q).1 (sixDigits q).2

theorem ten_zpow_pos (k : Int) : (0 : ℚ) < 10 ^ k := zpow_pos (by norm_num) k

theorem log_lo {q : ℚ} (h : 0 < q) : (10 : ℚ) ^ (Int.log 10 q) ≤ q := by
  exact_mod_cast Int.zpow_log_le_self (b := 10) (by norm_num) h

theorem log_hi (q : ℚ) : q < (10 : ℚ) ^ (Int.log 10 q + 1) := by
  exact_mod_cast Int.lt_zpow_succ_log_self (b := 10) (by norm_num) q

theorem log_unique {q : ℚ} {k : Int} (h1 : (10 : ℚ) ^ k ≤ q) (h2 : q < (10 : ℚ) ^ (k + 1)) : Int.log 10 q = k := by
  have hq : 0 < q := lt_of_lt_of_le (ten_zpow_pos k) h1
  have a := log_lo hq
  have b := log_hi q
  have c : (10 : ℚ) ^ k < 10 ^ (Int.log 10 q + 1) := lt_of_le_of_lt h1 b
  have d : (10 : ℚ) ^ (Int.log 10 q) < 10 ^ (k + 1) := lt_of_le_of_lt a h2
  rw [zpow_lt_zpow_iff_right₀ (by norm_num)] at c d
  omega

/-- The scaled mantissa. -/
def scaled (q : ℚ) : ℚ := q / (10 : ℚ) ^ (Int.log 10 q - 5)

theorem scaled_bounds {q : ℚ} (h : 0 < q) : (10 : ℚ) ^ 5 ≤ scaled q ∧ scaled q < 10 ^ 6 := by
  have a := log_lo h
  have b := log_hi q
  unfold scaled
  rw [le_div_iff₀ (ten_zpow_pos _), div_lt_iff₀ (ten_zpow_pos _)]
  constructor
  · rw [← zpow_natCast, ← zpow_add₀ (by norm_num), show ((5 : ℕ) : Int) + (Int.log 10 q - 5) = Int.log 10 q by
      push_cast; ring]
    exact a
  · rw [← zpow_natCast, ← zpow_add₀ (by norm_num), show ((6 : ℕ) : Int) + (Int.log 10 q - 5) = Int.log 10 q + 1 by
      push_cast; ring]
    exact b

theorem six_eq {q : ℚ} : six q = (roundEven (scaled q) : ℚ) * (10 : ℚ) ^ (Int.log 10 q - 5) := by
  unfold six sixDigits decVal
  simp only
  change _ = (roundEven (q / _) : ℚ) * _
  split
  · rename_i h
    simp only [h]
    have : Int.log 10 q + 1 - 5 = (Int.log 10 q - 5) + 1 := by ring
    rw [this, zpow_add_one₀ (by norm_num)]
    push_cast; ring
  · rfl

theorem round_bounds {q : ℚ} (h : 0 < q) : 10 ^ 5 ≤ roundEven (scaled q) ∧ roundEven (scaled q) ≤ 10 ^ 6 := by
  obtain ⟨a, b⟩ := scaled_bounds h
  constructor
  · have := roundEven_mono (p := ((10 ^ 5 : ℕ) : ℚ)) (by push_cast; exact a)
    rwa [roundEven_natCast] at this
  · have := roundEven_mono (q := ((10 ^ 6 : ℕ) : ℚ)) (by push_cast; exact b.le)
    rwa [roundEven_natCast] at this

theorem sixDigits_bounds {q : ℚ} (h : 0 < q) : 10 ^ 5 ≤ (sixDigits q).1 ∧ (sixDigits q).1 < 10 ^ 6 := by
  obtain ⟨a, b⟩ := round_bounds h
  unfold scaled at a b
  unfold sixDigits
  simp only
  split
  · norm_num
  · rename_i hne
    exact ⟨a, lt_of_le_of_ne b hne⟩

theorem six_pos {q : ℚ} (h : 0 < q) : 0 < six q := by
  rw [six_eq]
  have := (round_bounds h).1
  have : 0 < roundEven (scaled q) := by omega
  exact mul_pos (by exact_mod_cast this) (ten_zpow_pos _)

/-- The relative error is at most half a unit of the sixth digit. -/
theorem eq_scaled (q : ℚ) : q = scaled q * (10 : ℚ) ^ (Int.log 10 q - 5) := by
  unfold scaled
  rw [div_mul_cancel₀ _ (ten_zpow_pos _).ne']

theorem six_error {q : ℚ} (h : 0 < q) : |six q - q| ≤ 5 / 10 ^ 6 * q := by
  have hs := (scaled_bounds h).1
  have h1 := roundEven_near (le_trans (by norm_num) hs)
  have hp := ten_zpow_pos (Int.log 10 q - 5)
  have hq := eq_scaled q
  rw [six_eq]
  generalize scaled q = s at *
  generalize (10 : ℚ) ^ (Int.log 10 q - 5) = u at *
  subst hq
  rw [← sub_mul, abs_mul, abs_of_pos hp]
  nlinarith

theorem six_exact {n : ℕ} (h0 : 0 < n) (h1 : n < 10 ^ 6) (j : Int) : six ((n : ℚ) * 10 ^ j) = (n : ℚ) * 10 ^ j := by
  have hn : (0 : ℚ) < n := by exact_mod_cast h0
  have hq : 0 < (n : ℚ) * 10 ^ j := mul_pos hn (ten_zpow_pos j)
  have hk := log_lo hq
  have hlt : (n : ℚ) * 10 ^ j < 10 ^ (6 + j) := by
    rw [zpow_add₀ (by norm_num)]
    apply mul_lt_mul_of_pos_right _ (ten_zpow_pos j)
    exact_mod_cast h1
  have := lt_of_le_of_lt hk hlt
  rw [zpow_lt_zpow_iff_right₀ (by norm_num)] at this
  obtain ⟨i, hi⟩ : ∃ i : ℕ, (i : Int) = j - (Int.log 10 ((n : ℚ) * 10 ^ j) - 5) :=
    ⟨(j - (Int.log 10 ((n : ℚ) * 10 ^ j) - 5)).toNat, Int.toNat_of_nonneg (by omega)⟩
  have hs : scaled ((n : ℚ) * 10 ^ j) = ((n * 10 ^ i : ℕ) : ℚ) := by
    unfold scaled
    rw [mul_div_assoc, ← zpow_sub₀ (by norm_num), ← hi]
    push_cast
    rw [zpow_natCast]
  conv_rhs => rw [eq_scaled ((n : ℚ) * 10 ^ j)]
  rw [six_eq, hs, roundEven_natCast]

theorem six_mono {p q : ℚ} (h0 : 0 < p) (h : p ≤ q) : six p ≤ six q := by
  have hq : 0 < q := lt_of_lt_of_le h0 h
  have hl : Int.log 10 p ≤ Int.log 10 q := Int.log_mono_right h0 h
  rw [six_eq, six_eq]
  rcases eq_or_lt_of_le hl with he | hlt
  · have : scaled p ≤ scaled q := by
      unfold scaled; rw [he]
      exact div_le_div_of_nonneg_right h (ten_zpow_pos _).le
    rw [he]
    exact mul_le_mul_of_nonneg_right (by exact_mod_cast roundEven_mono this) (ten_zpow_pos _).le
  · have a : (roundEven (scaled p) : ℚ) * 10 ^ (Int.log 10 p - 5) ≤ 10 ^ (Int.log 10 p + 1) := by
      have : (10 : ℚ) ^ (Int.log 10 p + 1) = 10 ^ 6 * 10 ^ (Int.log 10 p - 5) := by
        rw [← zpow_natCast (10 : ℚ) 6, ← zpow_add₀ (by norm_num)]
        congr 1
        push_cast; ring
      rw [this]
      exact mul_le_mul_of_nonneg_right (by exact_mod_cast (round_bounds h0).2) (ten_zpow_pos _).le
    have b : (10 : ℚ) ^ (Int.log 10 q) ≤ (roundEven (scaled q) : ℚ) * 10 ^ (Int.log 10 q - 5) := by
      have : (10 : ℚ) ^ (Int.log 10 q) = 10 ^ 5 * 10 ^ (Int.log 10 q - 5) := by
        rw [← zpow_natCast (10 : ℚ) 5, ← zpow_add₀ (by norm_num)]
        congr 1
        push_cast; ring
      rw [this]
      exact mul_le_mul_of_nonneg_right (by exact_mod_cast (round_bounds hq).1) (ten_zpow_pos _).le
    refine le_trans a (le_trans ?_ b)
    rw [zpow_le_zpow_iff_right₀ (by norm_num)]
    omega

/-- Every number close enough to a six digit decimal is printed as that decimal: the error of converting the
decimal to a double does not show. -/
theorem six_near {m : ℕ} (h1 : 10 ^ 5 ≤ m) (h2 : m < 10 ^ 6) (j : Int) {y : ℚ}
    (hy : |y - m * 10 ^ j| ≤ 1 / 10 ^ 8 * (m * 10 ^ j)) : six y = m * 10 ^ j := by
  have hu := ten_zpow_pos j
  have hm1 : (10 : ℚ) ^ 5 ≤ m := by exact_mod_cast h1
  have hm2 : (m : ℚ) ≤ 10 ^ 6 - 1 := by
    have : m + 1 ≤ 10 ^ 6 := h2
    have : ((m + 1 : ℕ) : ℚ) ≤ ((10 ^ 6 : ℕ) : ℚ) := by exact_mod_cast this
    push_cast at this; linarith
  rw [abs_le] at hy
  have e5 : (10 : ℚ) ^ (j + 5) = 10 ^ 5 * 10 ^ j := by
    rw [zpow_add₀ (by norm_num)]; push_cast; ring
  have e6 : (10 : ℚ) ^ (j + 5 + 1) = 10 ^ 6 * 10 ^ j := by
    rw [zpow_add_one₀ (by norm_num), e5]; ring
  have e4 : (10 : ℚ) ^ (j + 4) = 10 ^ 4 * 10 ^ j := by
    rw [zpow_add₀ (by norm_num)]; push_cast; ring
  have em : (10 : ℚ) ^ (j - 1) = 10 ^ j / 10 := by
    rw [zpow_sub_one₀ (by norm_num)]; rfl
  by_cases hc : (10 : ℚ) ^ (j + 5) ≤ y
  · have hlog : Int.log 10 y = j + 5 := by
      apply log_unique hc
      rw [e6]; nlinarith
    have hsc : scaled y = y / 10 ^ j := by
      unfold scaled; rw [hlog]; congr 2; ring
    rw [six_eq, hlog, hsc]
    have : roundEven (y / 10 ^ j) = m := by
      apply roundEven_unique
      · apply div_nonneg _ hu.le
        rw [e5] at hc; nlinarith
      · rw [show y / 10 ^ j - m = (y - m * 10 ^ j) / 10 ^ j by field_simp, abs_div, abs_of_pos hu, div_lt_iff₀ hu, abs_lt]
        constructor <;> nlinarith
    rw [this]; congr 2; ring
  · rw [not_le, e5] at hc
    have hm : m = 10 ^ 5 := by
      by_contra hne
      have : 10 ^ 5 + 1 ≤ m := by omega
      have : ((10 ^ 5 + 1 : ℕ) : ℚ) ≤ m := by exact_mod_cast this
      push_cast at this
      nlinarith
    subst hm
    push_cast at *
    have hlog : Int.log 10 y = j + 4 := by
      apply log_unique
      · rw [e4]; nlinarith
      · rw [show j + 4 + 1 = j + 5 by ring, e5]; exact hc
    have hsc : scaled y = y / 10 ^ (j - 1) := by
      unfold scaled; rw [hlog]; congr 2; ring
    rw [six_eq, hlog, hsc]
    have hu' := ten_zpow_pos (j - 1)
    have : roundEven (y / 10 ^ (j - 1)) = 10 ^ 6 := by
      apply roundEven_unique
      · apply div_nonneg _ hu'.le
        nlinarith
      · rw [show y / 10 ^ (j - 1) - ((10 ^ 6 : ℕ) : ℚ) = (y - 10 ^ 6 * 10 ^ (j - 1)) / 10 ^ (j - 1) by
          field_simp; push_cast; ring, abs_div, abs_of_pos hu', div_lt_iff₀ hu', abs_lt, em]
        constructor <;> nlinarith
    rw [this, show j + 4 - 5 = j - 1 by ring, em]
    push_cast; ring

end City
