import Verif.Lemmas.Print
/-!
Property C22: coordinates in the text formats.
`scanDecs rnd (dblText x)` is the list of numbers read by `istream_iterator<double>` from the text that `ostream <<`
prints for `x`. Any conversion `rnd` of decimals to doubles is allowed.
-/
set_option exponentiation.threshold 2000
namespace City.Props
open City Spec

/-- C22: reading what was printed gives exactly one number: the conversion of a decimal `d` with at most six digits that
differs from `x` by at most half a unit of the sixth digit, has the sign of `x`, and is `x` itself if `x` has at
most six significant digits. -/
theorem C22_read_back (rnd : ℚ → ℚ) (x : ℚ) (hx : |x| ≤ dblMax) :
    ∃ d, scanDecs rnd (dblText x) = [rnd d] ∧ FewDigits d ∧ |d - x| ≤ 5 / 10 ^ 6 * |x| ∧
      (0 < d ↔ 0 < x) ∧ (d < 0 ↔ x < 0) ∧ (FewDigits x → d = x) := by
  refine ⟨round6 x, ?_, fewDigits_round6 x, round6_error x, (round6_sign x).1, (round6_sign x).2, round6_exact⟩
  have := scanDecs_dblText rnd hx stop_nil
  rwa [List.append_nil, scanDecs_nil] at this

/-- C22: reading back keeps the order of coordinates. -/
theorem C22_monotone (x y dx dy : ℚ) (hx : |x| ≤ dblMax) (hy : |y| ≤ dblMax) (h : x ≤ y)
    (hdx : scanDecs id (dblText x) = [dx]) (hdy : scanDecs id (dblText y) = [dy]) : dx ≤ dy := by
  have a := scanDecs_dblText id hx stop_nil
  have b := scanDecs_dblText id hy stop_nil
  rw [List.append_nil, scanDecs_nil] at a b
  rw [a] at hdx; rw [b] at hdy
  cases hdx; cases hdy
  exact round6_mono h

/-- C22: a second write changes nothing: the text printed for the value read back is the same text, whatever the
rounding of the conversion to double (in the normal range). -/
theorem C22_idempotent (rnd : ℚ → ℚ) (hr : IsRounding rnd) (x y : ℚ) (hx : |x| ≤ dblMax)
    (hn : x = 0 ∨ (10 : ℚ) ^ (-307 : ℤ) ≤ |x|) (hy : scanDecs rnd (dblText x) = [y]) : dblText y = dblText x := by
  have a := scanDecs_dblText rnd hx stop_nil
  rw [List.append_nil, scanDecs_nil] at a
  rw [a] at hy
  cases hy
  rcases hn with rfl | hn
  · rw [round6_zero]
    have := hr.small_nat 0 (by norm_num)
    simp at this
    rw [this]
  · apply dblText_congr
    have herr := round6_error x
    have hlow : (2 : ℚ) ^ (-1022 : ℤ) ≤ |round6 x| := by
      have h1 : |x| - |round6 x - x| ≤ |round6 x| := by
        have := abs_sub_abs_le_abs_sub x (x - round6 x)
        have e : x - (x - round6 x) = round6 x := by ring
        rw [e, abs_sub_comm x] at this
        exact this
      have h2 : (1 : ℚ) / 2 * |x| ≤ |round6 x| := by
        have := abs_nonneg x; linarith
      refine le_trans ?_ (le_trans (mul_le_mul_of_nonneg_left hn (by norm_num)) h2)
      rw [show (-1022 : ℤ) = -((1022 : ℕ) : ℤ) by rfl, show (-307 : ℤ) = -((307 : ℕ) : ℤ) by rfl, zpow_neg, zpow_neg,
        zpow_natCast, zpow_natCast]
      norm_num
    refine (round6_near (x := x) ?_).trans ?_
    · refine le_trans (hr.error _ hlow) (mul_le_mul_of_nonneg_right ?_ (abs_nonneg _))
      rw [show (-53 : ℤ) = -((53 : ℕ) : ℤ) by rfl, zpow_neg, zpow_natCast]
      norm_num
    · rfl

/-- C22: the loss is real: a projected coordinate such as 652100.25 m comes back as 652100 m. -/
theorem C22_loss : scanDecs id (dblText (652100.25)) = [652100] := by
  have a := scanDecs_dblText id (x := 652100.25) (by rw [abs_of_pos (by norm_num)]; unfold dblMax; norm_num) stop_nil
  rw [List.append_nil, scanDecs_nil] at a
  rw [a]
  have hlog : Int.log 10 (652100.25 : ℚ) = 5 := by
    apply log_unique <;> norm_num
  have : round6 652100.25 = 652100 := by
    rw [round6_pos (by norm_num), six_eq, show roundEven (scaled 652100.25) = 652100 from ?_, hlog]
    · norm_num
    · unfold scaled; rw [hlog]
      apply roundEven_unique
      · norm_num
      · rw [abs_lt]; constructor <;> norm_num
  simp [this]

/-- The exact conversion is a rounding: the hypotheses of `C22_idempotent` can be met. -/
example : IsRounding id ∧ |(1 / 3 : ℚ)| ≤ dblMax ∧ (10 : ℚ) ^ (-307 : ℤ) ≤ |(1 / 3 : ℚ)| := by
  refine ⟨⟨fun _ _ => rfl, fun v _ => ?_⟩, ?_, ?_⟩
  · simp only [id, sub_self, abs_zero]
    exact mul_nonneg (zpow_nonneg (by norm_num) _) (abs_nonneg _)
  · rw [abs_of_pos (by norm_num)]; unfold dblMax; norm_num
  · rw [abs_of_pos (by norm_num), show (-307 : ℤ) = -((307 : ℕ) : ℤ) by rfl, zpow_neg, zpow_natCast]
    norm_num

/-- 12.5 has few digits. -/
example : FewDigits 12.5 := ⟨125, -1, by norm_num, by rw [abs_of_pos (by norm_num)]; norm_num⟩

end City.Props
