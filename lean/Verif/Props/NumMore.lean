import Verif.Props.Num
import Verif.Lemmas.Words
/-!
C22: which decimal is printed for a double, and in which notation.
-/
set_option exponentiation.threshold 2000
namespace City.Props
open City Spec

theorem roundEven_best {s : ℚ} (h0 : 0 ≤ s) (N : ℤ) :
    |(roundEven s : ℚ) - s| ≤ |(N : ℚ) - s| ∧ (|(N : ℚ) - s| = |(roundEven s : ℚ) - s| → N = roundEven s ∨ Even (roundEven s)) := by
  have h1 := Nat.floor_le h0
  have h2 := Nat.lt_floor_add_one s
  have hN : (N : ℚ) ≤ ⌊s⌋₊ ∨ (⌊s⌋₊ : ℚ) + 1 ≤ N := by
    rcases le_or_gt N (⌊s⌋₊ : ℤ) with h | h
    · left; exact_mod_cast h
    · right; exact_mod_cast h
  have key : ∀ r : ℕ, (r = ⌊s⌋₊ ∧ (s - ⌊s⌋₊ < 1 / 2 ∨ s - ⌊s⌋₊ = 1 / 2 ∧ Even r)) ∨
      (r = ⌊s⌋₊ + 1 ∧ (1 / 2 < s - ⌊s⌋₊ ∨ s - ⌊s⌋₊ = 1 / 2 ∧ Even r)) →
      |(r : ℚ) - s| ≤ |(N : ℚ) - s| ∧ (|(N : ℚ) - s| = |(r : ℚ) - s| → N = r ∨ Even r) := by
    intro r hr
    generalize ⌊s⌋₊ = f at *
    rcases hr with ⟨rfl, hr⟩ | ⟨rfl, hr⟩
    · rw [abs_of_nonpos (by linarith : (r : ℚ) - s ≤ 0)]
      rcases hN with hN | hN
      · rw [abs_of_nonpos (by linarith : (N : ℚ) - s ≤ 0)]
        refine ⟨by linarith, fun e => Or.inl ?_⟩
        have : (N : ℚ) = r := by linarith
        exact_mod_cast this
      · rw [abs_of_nonneg (by linarith : 0 ≤ (N : ℚ) - s)]
        rcases hr with hr | ⟨hr, he⟩
        · refine ⟨by linarith, fun e => ?_⟩
          exfalso; linarith
        · exact ⟨by linarith, fun _ => Or.inr he⟩
    · rw [abs_of_nonneg (by push_cast; linarith : 0 ≤ ((f + 1 : ℕ) : ℚ) - s)]
      push_cast
      rcases hN with hN | hN
      · rw [abs_of_nonpos (by linarith : (N : ℚ) - s ≤ 0)]
        rcases hr with hr | ⟨hr, he⟩
        · refine ⟨by linarith, fun e => ?_⟩
          exfalso; linarith
        · exact ⟨by linarith, fun _ => Or.inr he⟩
      · rw [abs_of_nonneg (by linarith : 0 ≤ (N : ℚ) - s)]
        refine ⟨by linarith, fun e => Or.inl ?_⟩
        have : (N : ℚ) = ((f + 1 : ℕ) : ℚ) := by push_cast; linarith
        exact_mod_cast this
  apply key
  unfold roundEven
  simp only
  split
  · left; exact ⟨rfl, Or.inl ‹_›⟩
  · split
    · right; exact ⟨rfl, Or.inl ‹_›⟩
    · have he : s - ⌊s⌋₊ = 1 / 2 := by linarith
      split
      · left; exact ⟨rfl, Or.inr ⟨he, Nat.even_iff.2 ‹_›⟩⟩
      · right; refine ⟨rfl, Or.inr ⟨he, ?_⟩⟩
        rw [Nat.even_iff]; omega

/-- A six digit number whose last digit is even. -/
def EvenDigits (x : ℚ) : Prop := ∃ (n : ℕ) (j : ℤ), 10 ^ 5 ≤ n ∧ n < 10 ^ 6 ∧ Even n ∧ |x| = n * (10 : ℚ) ^ j

theorem six_nearest {q d' : ℚ} (hq : 0 < q) (h : FewDigits d') :
    |six q - q| ≤ |d' - q| ∧ (|d' - q| = |six q - q| → d' = six q ∨ EvenDigits (six q)) := by
  obtain ⟨b1, b2⟩ := scaled_bounds hq
  have hs0 : 0 ≤ scaled q := le_trans (by norm_num) b1
  set u := (10 : ℚ) ^ (Int.log 10 q - 5) with hu
  have up : 0 < u := ten_zpow_pos _
  have eq : q = scaled q * u := eq_scaled q
  have six : six q = (roundEven (scaled q) : ℚ) * u := six_eq
  obtain ⟨r1, r2⟩ := round_bounds hq
  obtain ⟨N, hN1, hN2⟩ : ∃ N : ℤ, |(N : ℚ) * u - q| ≤ |d' - q| ∧ (|d' - q| = |(N : ℚ) * u - q| → d' = N * u) := by
    rcases lt_or_ge d' (10 ^ 5 * u) with h5 | h5
    · refine ⟨10 ^ 5, ?_, ?_⟩
      all_goals
        have e1 : ((10 ^ 5 : ℤ) : ℚ) * u - q ≤ 0 := by push_cast; nlinarith
        rw [abs_of_nonpos e1, abs_of_nonpos (by push_cast at e1; linarith : d' - q ≤ 0)]
        push_cast at e1 ⊢
      · linarith
      · intro e; linarith
    · rcases lt_or_ge d' (10 ^ 6 * u) with h6 | h6
      · obtain ⟨n, j, hn, hd⟩ := h
        have dp : 0 < d' := lt_of_lt_of_le (by positivity) h5
        rw [abs_of_pos dp] at hd
        have hj : Int.log 10 q - 5 ≤ j := by
          by_contra hj
          rw [not_le] at hj
          have : (10 : ℚ) ^ j ≤ u / 10 := by
            rw [hu, div_eq_mul_inv, ← zpow_sub_one₀ (by norm_num)]
            exact zpow_le_zpow_right₀ (by norm_num) (by omega)
          have hn' : (n : ℚ) < 10 ^ 6 := by exact_mod_cast hn
          have : (n : ℚ) * 10 ^ j < 10 ^ 6 * (u / 10) := by
            have := ten_zpow_pos j
            nlinarith
          rw [← hd] at this
          linarith
        refine ⟨n * 10 ^ (j - (Int.log 10 q - 5)).toNat, ?_, ?_⟩
        all_goals
          have e : ((n * 10 ^ (j - (Int.log 10 q - 5)).toNat : ℤ) : ℚ) * u = d' := by
            rw [hd, hu]
            push_cast
            rw [mul_assoc, ← zpow_natCast, ← zpow_add₀ (by norm_num)]
            congr 2
            omega
          rw [e]
        exact fun _ => rfl
      · refine ⟨10 ^ 6, ?_, ?_⟩
        all_goals
          have e1 : 0 ≤ ((10 ^ 6 : ℤ) : ℚ) * u - q := by push_cast; nlinarith
          rw [abs_of_nonneg e1, abs_of_nonneg (by push_cast at e1; linarith : 0 ≤ d' - q)]
          push_cast at e1 ⊢
        · linarith
        · intro e; linarith
  obtain ⟨c1, c2⟩ := roundEven_best hs0 N
  have f1 : ∀ x : ℚ, |x * u - q| = |x - scaled q| * u := by
    intro x
    conv_lhs => rw [eq]
    rw [← sub_mul, abs_mul, abs_of_pos up]
  rw [six, f1]
  rw [f1] at hN1 hN2
  constructor
  · exact le_trans (mul_le_mul_of_nonneg_right c1 up.le) hN1
  · intro e
    have : |(N : ℚ) - scaled q| = |(roundEven (scaled q) : ℚ) - scaled q| := by
      apply le_antisymm _ c1
      rw [e] at hN1
      exact le_of_mul_le_mul_right hN1 up
    rcases c2 this with h1 | h1
    · left
      rw [hN2 (by rw [e, this]), h1]
      push_cast; rfl
    · right
      rcases Nat.lt_or_ge (roundEven (scaled q)) (10 ^ 6) with h6 | h6
      · refine ⟨_, Int.log 10 q - 5, r1, h6, h1, ?_⟩
        rw [abs_of_nonneg (by positivity)]
      · have : roundEven (scaled q) = 10 ^ 6 := le_antisymm r2 h6
        refine ⟨10 ^ 5, Int.log 10 q - 5 + 1, by norm_num, by norm_num, by decide, ?_⟩
        rw [this, abs_of_nonneg (by positivity), zpow_add_one₀ (by norm_num), ← hu]
        push_cast; ring

theorem fewDigits_neg {x : ℚ} (h : FewDigits x) : FewDigits (-x) := by
  obtain ⟨n, j, h1, h2⟩ := h
  exact ⟨n, j, h1, by rwa [abs_neg]⟩

theorem read_round6 {x d : ℚ} (hx : |x| ≤ dblMax) (hd : scanDecs id (dblText x) = [d]) : d = round6 x := by
  have a := scanDecs_dblText id hx stop_nil
  rw [List.append_nil, scanDecs_nil] at a
  rw [a] at hd
  cases hd
  rfl

/-- C22: the decimal printed is the nearest one with six significant digits; when two are equally near, the one whose sixth digit is even. -/
theorem C22_nearest (x d : ℚ) (hx : |x| ≤ dblMax) (hd : scanDecs id (dblText x) = [d]) (d' : ℚ) (h : FewDigits d') :
    |d - x| ≤ |d' - x| ∧ (|d' - x| = |d - x| → d' = d ∨ EvenDigits d) := by
  rw [read_round6 hx hd]
  rcases lt_trichotomy x 0 with h0 | rfl | h0
  · have e : round6 x = -six (-x) := by rw [← round6_pos (by linarith), round6_neg]; ring
    obtain ⟨k1, k2⟩ := six_nearest (q := -x) (by linarith) (fewDigits_neg h)
    have f : ∀ y : ℚ, |-y - x| = |y - -x| := by
      intro y; rw [← abs_neg]; congr 1; ring
    rw [e, f, show |d' - x| = |-d' - -x| by rw [← f, neg_neg]]
    refine ⟨k1, fun h => ?_⟩
    rcases k2 h with h | ⟨n, j, h1, h2, h3, h4⟩
    · left; rw [← h]; ring
    · right; exact ⟨n, j, h1, h2, h3, by rw [abs_neg]; exact h4⟩
  · rw [round6_zero]
    simp only [sub_self, abs_zero, sub_zero, abs_nonneg, abs_eq_zero, true_and]
    exact Or.inl
  · rw [round6_pos h0]
    exact six_nearest h0 h

theorem digits_of_all {t : Text} (h : ∀ c ∈ t, isDigit c = true) : Digits t := by
  intro c hc
  have := h c hc
  simp only [isDigit, decide_eq_true_eq] at this
  obtain ⟨h1, h2⟩ := this
  have hc : c = Char.ofNat c.toNat := by simp
  rw [hc]
  generalize c.toNat = n at *
  interval_cases n <;> decide

theorem rstrip0_last (t : Text) : (rstrip0 t).getLast? ≠ some '0' := by
  unfold rstrip0
  rw [List.getLast?_reverse]
  intro h
  have := List.head?_dropWhile_not (p := (· == '0')) (l := t.reverse)
  rw [h] at this
  simp at this

theorem natText_head {m : ℕ} (h : m ≠ 0) : (natText m).head? ≠ some '0' := by
  unfold natText
  rw [if_neg h, List.head?_map, List.head?_reverse]
  intro hh
  rw [Option.map_eq_some_iff] at hh
  obtain ⟨d, hd, h0⟩ := hh
  have hl : Nat.digits 10 m ≠ [] := Nat.digits_ne_nil_iff_ne_zero.2 h
  have := Nat.getLast_digit_ne_zero 10 h
  rw [List.getLast?_eq_some_getLast hl, Option.some_inj] at hd
  have hlt : d < 10 := by
    rw [← hd]
    exact Nat.digits_lt_base (by norm_num) (List.getLast_mem hl)
  rw [hd] at this
  interval_cases d <;> first | exact absurd rfl this | (revert h0; decide)

/-- A number as the writers print it: an optional minus, digits without useless leading zero, a fraction without trailing zero, and in the
scientific notation one digit before the point and an exponent of two digits at least. -/
def Printed (w : Text) (scientific : Bool) : Prop :=
  ∃ s a b x : Text, w = s ++ (a ++ ((if b = [] then [] else '.' :: b) ++ x)) ∧ (s = [] ∨ s = ['-']) ∧
    Digits a ∧ a ≠ [] ∧ (a = ['0'] ∨ a.head? ≠ some '0') ∧ Digits b ∧ b.getLast? ≠ some '0' ∧
    if scientific then a.length = 1 ∧ a ≠ ['0'] ∧ ∃ c d, x = 'e' :: c :: d ∧ (c = '+' ∨ c = '-') ∧ Digits d ∧ 2 ≤ d.length else x = []

theorem gText_printed {m : ℕ} (h1 : 10 ^ 5 ≤ m) (h2 : m < 10 ^ 6) (e : ℤ) (s : Text) (hs : s = [] ∨ s = ['-']) :
    Printed (s ++ gText m e) (decide (e < -4 ∨ 6 ≤ e)) := by
  have hlen : (natText m).length = 6 := natText_length (k := 5) h1 h2
  have hd := natText_digits m
  have hh := natText_head (m := m) (by omega)
  have htake : ∀ k, ((natText m).take (k + 1)).head? ≠ some '0' := by
    intro k h
    apply hh
    rw [← h, List.head?_take]
    simp
  unfold gText
  simp only
  split
  · rename_i he
    rw [decide_eq_true he]
    refine ⟨s, (natText m).take 1, rstrip0 ((natText m).drop 1), expText e, ?_, hs, ?_, ?_, Or.inr (htake 0), ?_, rstrip0_last _, ?_⟩
    · unfold fracText
      simp [List.append_assoc]
    · exact digits_of_all fun c hc => hd c (List.mem_of_mem_take hc)
    · intro h
      have := congrArg List.length h
      simp [hlen] at this
    · exact digits_of_all (rstrip0_digits fun c hc => hd c (List.mem_of_mem_drop hc))
    · rw [if_pos rfl]
      refine ⟨by simp [hlen], fun h => htake 0 (by rw [h]; rfl), _, _, rfl, ?_, ?_, ?_⟩
      · split <;> simp
      · apply digits_of_all
        exact (expDigits e).2.1
      · split
        · have := List.length_pos_iff.2 (natText_ne_nil e.natAbs)
          simp only [List.length_cons]
          omega
        · rename_i h10
          by_contra hc
          have hl : (natText e.natAbs).length = 1 := by
            have := List.length_pos_iff.2 (natText_ne_nil e.natAbs)
            omega
          have hv := natVal_natText e.natAbs
          match hx : natText e.natAbs, hl with
          | [c], _ =>
            have := natText_digits e.natAbs c (by rw [hx]; simp)
            rw [hx] at hv
            simp only [isDigit, decide_eq_true_eq] at this
            simp [natVal, digitVal] at hv
            omega
  · rename_i he
    rw [decide_eq_false he]
    split
    · refine ⟨s, (natText m).take (e.toNat + 1), rstrip0 ((natText m).drop (e.toNat + 1)), [], ?_, hs, ?_, ?_, Or.inr (htake _), ?_,
        rstrip0_last _, ?_⟩
      · unfold fracText
        simp
      · exact digits_of_all fun c hc => hd c (List.mem_of_mem_take hc)
      · intro h
        have := congrArg List.length h
        simp [hlen] at this
      · exact digits_of_all (rstrip0_digits fun c hc => hd c (List.mem_of_mem_drop hc))
      · simp
    · refine ⟨s, ['0'], rstrip0 (List.replicate ((-e).toNat - 1) '0' ++ natText m), [], ?_, hs, ?_, by simp, Or.inl rfl, ?_,
        rstrip0_last _, ?_⟩
      · unfold fracText
        simp
      · intro c hc; simp at hc; subst hc; simp
      · apply digits_of_all
        apply rstrip0_digits
        intro c hc
        rcases List.mem_append.1 hc with hc | hc
        · rw [List.eq_of_mem_replicate hc]; decide
        · exact hd c hc
      · simp

theorem decVal_sci {m : ℕ} {e : ℤ} (h1 : 10 ^ 5 ≤ m) (h2 : m < 10 ^ 6) :
    (e < -4 ∨ 6 ≤ e) ↔ (decVal m e < 1 / 10 ^ 4 ∨ 10 ^ 6 ≤ decVal m e) := by
  have h1q : (10 : ℚ) ^ 5 ≤ m := by exact_mod_cast h1
  have h2q : (m : ℚ) < 10 ^ 6 := by exact_mod_cast h2
  have hu := ten_zpow_pos (e - 5)
  have lo : (10 : ℚ) ^ e ≤ decVal m e := by
    have : (10 : ℚ) ^ e = 10 ^ 5 * 10 ^ (e - 5) := by
      rw [← zpow_natCast (10 : ℚ) 5, ← zpow_add₀ (by norm_num)]; congr 1; push_cast; ring
    rw [this]; unfold decVal; nlinarith
  have hi : decVal m e < (10 : ℚ) ^ (e + 1) := by
    have : (10 : ℚ) ^ (e + 1) = 10 ^ 6 * 10 ^ (e - 5) := by
      rw [← zpow_natCast (10 : ℚ) 6, ← zpow_add₀ (by norm_num)]; congr 1; push_cast; ring
    rw [this]; unfold decVal; nlinarith
  have p4 : (10 : ℚ) ^ (-4 : ℤ) = 1 / 10 ^ 4 := by norm_num
  have p6 : (10 : ℚ) ^ (6 : ℤ) = 10 ^ 6 := by norm_num
  have mono : ∀ a b : ℤ, a ≤ b → (10 : ℚ) ^ a ≤ 10 ^ b := fun a b h => zpow_le_zpow_right₀ (by norm_num) h
  constructor
  · rintro (h | h)
    · left
      rw [← p4]
      exact lt_of_lt_of_le hi (mono _ _ (by omega))
    · right
      rw [← p6]
      exact le_trans (mono _ _ h) lo
  · rintro (h | h)
    · left
      by_contra hc
      have := mono (-4) e (by omega)
      rw [p4] at this
      linarith
    · right
      by_contra hc
      have := mono (e + 1) 6 (by omega)
      rw [p6] at this
      linarith

/-- C22: the notation. Numbers whose printed value is below 1/10000 or not below a million are in scientific notation, the others are not. -/
theorem C22_notation (x d : ℚ) (hx : |x| ≤ dblMax) (hd : scanDecs id (dblText x) = [d]) :
    Printed (dblText x) (decide (d ≠ 0 ∧ (|d| < 1 / 10 ^ 4 ∨ 10 ^ 6 ≤ |d|))) := by
  rw [read_round6 hx hd]
  rcases lt_trichotomy x 0 with h0 | rfl | h0
  · have e : round6 x = -six (-x) := by rw [← round6_pos (by linarith), round6_neg]; ring
    have p := six_pos (q := -x) (by linarith)
    obtain ⟨b1, b2⟩ := sixDigits_bounds (q := -x) (by linarith)
    have := gText_printed b1 b2 (sixDigits (-x)).2 ['-'] (Or.inr rfl)
    rw [e, abs_neg, abs_of_pos p]
    unfold dblText
    rw [if_neg h0.ne, if_pos h0]
    rw [decide_eq_decide.2 (show (-six (-x) ≠ 0 ∧ (six (-x) < 1 / 10 ^ 4 ∨ 10 ^ 6 ≤ six (-x))) ↔ _ from
      ⟨fun h => (decVal_sci b1 b2).2 h.2, fun h => ⟨by linarith, (decVal_sci b1 b2).1 h⟩⟩)]
    exact this
  · rw [round6_zero]
    refine ⟨[], ['0'], [], [], ?_, Or.inl rfl, ?_, by simp, Or.inl rfl, by simp [Digits], by simp, ?_⟩
    · simp [dblText]
    · intro c hc; simp at hc; subst hc; simp
    · simp
  · have p := six_pos h0
    obtain ⟨b1, b2⟩ := sixDigits_bounds h0
    have := gText_printed b1 b2 (sixDigits x).2 [] (Or.inl rfl)
    rw [round6_pos h0, abs_of_pos p]
    unfold dblText
    rw [if_neg h0.ne', if_neg h0.not_gt]
    rw [decide_eq_decide.2 (show (six x ≠ 0 ∧ (six x < 1 / 10 ^ 4 ∨ 10 ^ 6 ≤ six x)) ↔ _ from
      ⟨fun h => (decVal_sci b1 b2).2 h.2, fun h => ⟨p.ne', (decVal_sci b1 b2).1 h⟩⟩)]
    exact this

/-- 100000.5 lies half-way between two numbers of six digits: the even one is printed. -/
example : scanDecs id (dblText (100000.5)) = [100000] ∧ FewDigits 100001 ∧ |(100001 : ℚ) - 100000.5| = |100000 - 100000.5| := by
  have hx : |(100000.5 : ℚ)| ≤ dblMax := by rw [abs_of_pos (by norm_num)]; unfold dblMax; norm_num
  have a := scanDecs_dblText id hx stop_nil
  rw [List.append_nil, scanDecs_nil] at a
  refine ⟨?_, ⟨100001, 0, by norm_num, by rw [abs_of_pos (by norm_num)]; norm_num⟩, by norm_num [abs_of_pos, abs_of_neg]⟩
  rw [a]
  have hlog : Int.log 10 (100000.5 : ℚ) = 5 := by
    apply log_unique <;> norm_num
  have : round6 100000.5 = 100000 := by
    rw [round6_pos (by norm_num), six_eq, hlog]
    have : scaled 100000.5 = 100000.5 := by unfold scaled; rw [hlog]; norm_num
    rw [this]
    have hf : ⌊(100000.5 : ℚ)⌋₊ = 100000 := by
      rw [Nat.floor_eq_iff (by norm_num)]; norm_num
    have : roundEven 100000.5 = 100000 := by
      unfold roundEven
      simp only [hf]
      norm_num
    rw [this]; norm_num
  simp [this]

end City.Props
