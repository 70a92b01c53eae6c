import Verif.Lemmas.Round
import Verif.Spec.Num
/-! What is read back from a printed double. -/
set_option exponentiation.threshold 2000
namespace City
open Spec

/-- The decimal printed for `x`. -/
def round6 (x : ℚ) : ℚ := if x = 0 then 0 else if x < 0 then -six (-x) else six x

theorem six_dblMax : six dblMax = 179769 * 10 ^ (303 : ℤ) := by
  have hlog : Int.log 10 dblMax = 308 := by
    apply log_unique
    · rw [show (308 : ℤ) = ((308 : ℕ) : ℤ) by rfl, zpow_natCast]; unfold dblMax; norm_num
    · rw [show (308 + 1 : ℤ) = ((309 : ℕ) : ℤ) by rfl, zpow_natCast]; unfold dblMax; norm_num
  have hs : roundEven (scaled dblMax) = 179769 := by
    unfold scaled
    rw [hlog, show (308 - 5 : ℤ) = ((303 : ℕ) : ℤ) by rfl, zpow_natCast]
    apply roundEven_unique
    · unfold dblMax; norm_num
    · unfold dblMax; rw [abs_lt]; constructor <;> norm_num
  rw [six_eq, hs, hlog]
  norm_num

theorem six_lt_overflow {q : ℚ} (h0 : 0 < q) (h : q ≤ dblMax) : six q < dblOverflow := by
  refine lt_of_le_of_lt (six_mono h0 h) ?_
  rw [six_dblMax, show (303 : ℤ) = ((303 : ℕ) : ℤ) by rfl, zpow_natCast]
  unfold dblOverflow; norm_num

theorem scanDec_dblText {x : ℚ} (hx : |x| ≤ dblMax) {rest : Text} (h : Stop rest) :
    scanDec (dblText x ++ rest) = some (round6 x, rest) := by
  have key : ∀ (neg : Bool) (q : ℚ), 0 < q → q ≤ dblMax →
      scanDec ((if neg then ['-'] else []) ++ (gText (sixDigits q).1 (sixDigits q).2 ++ rest)) =
        some (if neg then -six q else six q, rest) := by
    intro neg q h0 hq
    obtain ⟨b1, b2⟩ := sixDigits_bounds h0
    obtain ⟨ds, fs, o, e1, e2, e3, e4, e5⟩ := gText_parts b1 b2 (sixDigits q).2
    have := scanDec_parts neg o e2 e3 e4 h (by rw [e5]; exact six_lt_overflow h0 hq)
    rw [e5] at this
    rw [e1, List.append_assoc, List.append_assoc, this]
    rfl
  unfold dblText round6
  split
  · have := scanDec_parts false (ds := ['0']) (fs := []) none (rest := rest) (by simp)
      (by intro c hc; simp at hc; subst hc; decide) (by simp) h
      (by
        have : natVal (['0'] ++ []) = 0 := by decide
        rw [this]; simp only [dblOverflow]; norm_num)
    simpa [optExp, fracText, natVal, digitVal] using this
  · rename_i h0
    split
    · rename_i hneg
      have := key true (-x) (by linarith) (by rwa [abs_of_neg hneg] at hx)
      simpa using this
    · rename_i hneg
      have hpos : 0 < x := lt_of_le_of_ne (not_lt.1 hneg) (Ne.symm h0)
      have := key false x hpos (by rwa [abs_of_pos hpos] at hx)
      simpa using this

theorem scanDecs_got (rnd : ℚ → ℚ) {t rest : Text} {v : ℚ} (h : scanDec t = some (v, rest)) :
    scanDecs rnd t = rnd v :: scanDecs rnd rest := by
  rw [scanDecs]
  split <;> simp_all

theorem scanDecs_fail (rnd : ℚ → ℚ) {t : Text} (h : scanDec t = none) : scanDecs rnd t = [] := by
  rw [scanDecs]
  split <;> simp_all

theorem scanDec_nil : scanDec [] = none := by simp [scanDec, skipWs, takeSign, takeFrac]

theorem scanDecs_nil (rnd : ℚ → ℚ) : scanDecs rnd [] = [] := scanDecs_fail rnd scanDec_nil

theorem scanDec_space {c : Char} (h : isSpace c = true) (t : Text) : scanDec (c :: t) = scanDec t := by
  unfold scanDec; rw [skipWs_cons h]

theorem scanDecs_space (rnd : ℚ → ℚ) {c : Char} (h : isSpace c = true) (t : Text) :
    scanDecs rnd (c :: t) = scanDecs rnd t := by
  cases hs : scanDec t with
  | none => rw [scanDecs_fail rnd hs, scanDecs_fail rnd (by rw [scanDec_space h]; exact hs)]
  | some p => rw [scanDecs_got rnd hs, scanDecs_got rnd (by rw [scanDec_space h]; exact hs)]

theorem scanDecs_dblText (rnd : ℚ → ℚ) {x : ℚ} (hx : |x| ≤ dblMax) {rest : Text} (h : Stop rest) :
    scanDecs rnd (dblText x ++ rest) = rnd (round6 x) :: scanDecs rnd rest :=
  scanDecs_got rnd (scanDec_dblText hx h)

/-! ### Properties of the decimal -/

theorem round6_neg (x : ℚ) : round6 (-x) = -round6 x := by
  unfold round6
  rcases lt_trichotomy x 0 with h | rfl | h
  · rw [if_neg (by linarith), if_neg (by linarith), if_neg (by linarith), if_pos h]; simp
  · simp
  · rw [if_neg (by linarith), if_pos (by linarith), if_neg (by linarith), if_neg (by linarith)]; simp

theorem round6_pos {x : ℚ} (h : 0 < x) : round6 x = six x := by
  unfold round6; rw [if_neg h.ne', if_neg h.not_gt]

theorem round6_zero : round6 0 = 0 := by simp [round6]

theorem round6_error (x : ℚ) : |round6 x - x| ≤ 5 / 10 ^ 6 * |x| := by
  rcases lt_trichotomy x 0 with h | rfl | h
  · have := six_error (q := -x) (by linarith)
    have e : round6 x = -six (-x) := by rw [← round6_pos (by linarith), round6_neg]; ring
    rw [e, abs_of_neg h, show -six (-x) - x = -(six (-x) - (-x)) by ring, abs_neg]
    exact this
  · simp [round6]
  · rw [round6_pos h, abs_of_pos h]; exact six_error h

theorem round6_sign (x : ℚ) : (0 < round6 x ↔ 0 < x) ∧ (round6 x < 0 ↔ x < 0) := by
  rcases lt_trichotomy x 0 with h | rfl | h
  · have hp := six_pos (q := -x) (by linarith)
    have e : round6 x = -six (-x) := by rw [← round6_pos (by linarith), round6_neg]; ring
    rw [e]
    constructor <;> constructor <;> intro _ <;> linarith
  · simp [round6]
  · have hp := six_pos h
    rw [round6_pos h]
    constructor <;> constructor <;> intro _ <;> linarith

theorem round6_exact {x : ℚ} (h : FewDigits x) : round6 x = x := by
  obtain ⟨n, j, hn, hx⟩ := h
  rcases lt_trichotomy x 0 with h | rfl | h
  · have e : round6 x = -six (-x) := by rw [← round6_pos (by linarith), round6_neg]; ring
    rw [abs_of_neg h] at hx
    have h0 : 0 < n := by
      rcases Nat.eq_zero_or_pos n with rfl | h0
      · simp at hx; linarith
      · exact h0
    rw [e, hx, six_exact h0 hn, ← hx]; ring
  · simp [round6]
  · rw [abs_of_pos h] at hx
    have h0 : 0 < n := by
      rcases Nat.eq_zero_or_pos n with rfl | h0
      · simp at hx; linarith
      · exact h0
    rw [round6_pos h, hx, six_exact h0 hn]

theorem round6_mono {x y : ℚ} (h : x ≤ y) : round6 x ≤ round6 y := by
  rcases lt_trichotomy x 0 with hx | rfl | hx
  · rcases lt_or_ge y 0 with hy | hy
    · have ex : round6 x = -six (-x) := by rw [← round6_pos (by linarith), round6_neg]; ring
      have ey : round6 y = -six (-y) := by rw [← round6_pos (by linarith), round6_neg]; ring
      rw [ex, ey]
      have := six_mono (p := -y) (q := -x) (by linarith) (by linarith)
      linarith
    · have a := (round6_sign x).2.2 hx
      have b : ¬ round6 y < 0 := fun hb => absurd ((round6_sign y).2.1 hb) (by linarith)
      linarith
  · have b : ¬ round6 y < 0 := fun hb => absurd ((round6_sign y).2.1 hb) (by linarith)
    rw [round6_zero]; linarith
  · rw [round6_pos hx, round6_pos (lt_of_lt_of_le hx h)]
    exact six_mono hx h

theorem fewDigits_round6 (x : ℚ) : FewDigits (round6 x) := by
  have key : ∀ q : ℚ, 0 < q → ∃ (n : ℕ) (j : ℤ), n < 10 ^ 6 ∧ six q = n * (10 : ℚ) ^ j := fun q hq =>
    ⟨(sixDigits q).1, (sixDigits q).2 - 5, (sixDigits_bounds hq).2, rfl⟩
  rcases lt_trichotomy x 0 with h | rfl | h
  · obtain ⟨n, j, h1, h2⟩ := key (-x) (by linarith)
    refine ⟨n, j, h1, ?_⟩
    have e : round6 x = -six (-x) := by rw [← round6_pos (by linarith), round6_neg]; ring
    rw [e, abs_neg, abs_of_pos (six_pos (by linarith)), h2]
  · exact ⟨0, 0, by norm_num, by simp [round6]⟩
  · obtain ⟨n, j, h1, h2⟩ := key x h
    exact ⟨n, j, h1, by rw [round6_pos h, abs_of_pos (six_pos h), h2]⟩

/-- A normalised pair is determined by its value. -/
theorem decVal_inj {m m' : ℕ} {e e' : ℤ} (h1 : 10 ^ 5 ≤ m) (h2 : m < 10 ^ 6) (h1' : 10 ^ 5 ≤ m') (h2' : m' < 10 ^ 6)
    (h : decVal m e = decVal m' e') : m = m' ∧ e = e' := by
  have key : ∀ {m : ℕ} {e : ℤ}, 10 ^ 5 ≤ m → m < 10 ^ 6 → Int.log 10 (decVal m e) = e := by
    intro m e h1 h2
    have h1q : (10 : ℚ) ^ 5 ≤ m := by exact_mod_cast h1
    have h2q : (m : ℚ) < 10 ^ 6 := by exact_mod_cast h2
    have hu := ten_zpow_pos (e - 5)
    apply log_unique
    · have : (10 : ℚ) ^ e = 10 ^ 5 * 10 ^ (e - 5) := by
        rw [← zpow_natCast (10 : ℚ) 5, ← zpow_add₀ (by norm_num)]; congr 1; push_cast; ring
      rw [this]; unfold decVal; nlinarith
    · have : (10 : ℚ) ^ (e + 1) = 10 ^ 6 * 10 ^ (e - 5) := by
        rw [← zpow_natCast (10 : ℚ) 6, ← zpow_add₀ (by norm_num)]; congr 1; push_cast; ring
      rw [this]; unfold decVal; nlinarith
  have he : e = e' := by rw [← key (m := m) (e := e) h1 h2, h, key h1' h2']
  subst he
  unfold decVal at h
  have := mul_right_cancel₀ (ten_zpow_pos (e - 5)).ne' h
  exact ⟨by exact_mod_cast this, rfl⟩

theorem dblText_congr {x y : ℚ} (h : round6 x = round6 y) : dblText x = dblText y := by
  have sx := round6_sign x
  have sy := round6_sign y
  rcases lt_trichotomy x 0 with hx | rfl | hx
  · have hy : y < 0 := sy.2.1 (by rw [← h]; exact sx.2.2 hx)
    have e1 : round6 x = -six (-x) := by rw [← round6_pos (by linarith), round6_neg]; ring
    have e2 : round6 y = -six (-y) := by rw [← round6_pos (by linarith), round6_neg]; ring
    rw [e1, e2] at h
    obtain ⟨a1, a2⟩ := sixDigits_bounds (q := -x) (by linarith)
    obtain ⟨b1, b2⟩ := sixDigits_bounds (q := -y) (by linarith)
    obtain ⟨c1, c2⟩ := decVal_inj a1 a2 b1 b2 (neg_injective h)
    unfold dblText
    rw [if_neg hx.ne, if_pos hx, if_neg hy.ne, if_pos hy, c1, c2]
  · have hy : y = 0 := by
      rcases lt_trichotomy y 0 with hy | hy | hy
      · have := sy.2.2 hy; rw [← h, round6_zero] at this; exact absurd this (lt_irrefl _)
      · exact hy
      · have := sy.1.2 hy; rw [← h, round6_zero] at this; exact absurd this (lt_irrefl _)
    rw [hy]
  · have hy : 0 < y := sy.1.1 (by rw [← h]; exact sx.1.2 hx)
    rw [round6_pos hx, round6_pos hy] at h
    obtain ⟨a1, a2⟩ := sixDigits_bounds hx
    obtain ⟨b1, b2⟩ := sixDigits_bounds hy
    obtain ⟨c1, c2⟩ := decVal_inj a1 a2 b1 b2 h
    unfold dblText
    rw [if_neg hx.ne', if_neg hx.not_gt, if_neg hy.ne', if_neg hy.not_gt, c1, c2]

theorem round6_near {x y : ℚ} (h : |y - round6 x| ≤ 1 / 10 ^ 8 * |round6 x|) : round6 y = round6 x := by
  have key : ∀ x y : ℚ, 0 < x → |y - round6 x| ≤ 1 / 10 ^ 8 * |round6 x| → round6 y = round6 x := by
    intro x y hx h
    rw [round6_pos hx] at *
    have hp := six_pos hx
    obtain ⟨a1, a2⟩ := sixDigits_bounds hx
    rw [abs_of_pos hp] at h
    have hy : 0 < y := by rw [abs_le] at h; linarith
    rw [round6_pos hy]
    exact six_near a1 a2 ((sixDigits x).2 - 5) h
  rcases lt_trichotomy x 0 with hx | rfl | hx
  · have := key (-x) (-y) (by linarith) (by
      rw [round6_neg, abs_neg, show -y - -round6 x = -(y - round6 x) by ring, abs_neg]; exact h)
    rw [round6_neg, round6_neg] at this
    exact neg_injective this
  · rw [round6_zero] at *
    simp at h
    rw [h, round6_zero]
  · exact key x y hx h

end City
