import Verif.Props.VecDbl
import Verif.Props.Vec
/-!
C89: `normal_to` on doubles.
-/
set_option linter.unusedSectionVars false
set_option exponentiation.threshold 2000
namespace City.Props
open City City.Spec V3

/-- A point with rational coordinates as a point of real space. -/
noncomputable def realPoint (p : V3 ℚ) : V3 ℝ := ⟨p.x, p.y, p.z⟩

/-- The double is finite and within a relative error `ε` of the real number. -/
def Near (ε : ℝ) (d : Dbl) (x : ℝ) : Prop := ∃ q : ℚ, d = .fin q ∧ |(q : ℝ) - x| ≤ ε * |x|

/-- The three coordinates are near those of a real vector. -/
def NearPoint (ε : ℝ) (d : V3 Dbl) (x : V3 ℝ) : Prop := Near ε d.x x.x ∧ Near ε d.y x.y ∧ Near ε d.z x.z

/-- C89 as stated: not a number for collinear points, otherwise the unit normal up to one part in a thousand. False: `C89_refuted`. -/
def C89_full : Prop := ∀ (o : SumOrder) (p q r : V3 ℚ), DoublePoint p → DoublePoint q → DoublePoint r →
  (Collinear3 (realPoint p) (realPoint q) (realPoint r) → normalToD o p.toDbl q.toDbl r.toDbl = ⟨.nan, .nan, .nan⟩) ∧
  (¬ Collinear3 (realPoint p) (realPoint q) (realPoint r) →
    NearPoint (1 / 1000) (normalToD o p.toDbl q.toDbl r.toDbl) (normalTo (realPoint p) (realPoint q) (realPoint r)))

/-! ### Zero and reversed normals -/

theorem sqrt_zero' : (Dbl.fin 0).sqrt = .fin 0 := by
  show (if (0 : ℚ) < 0 then Dbl.nan else Dbl.ofExact (Real.sqrt ((0 : ℚ) : ℝ))) = _
  rw [if_neg (lt_irrefl _)]
  have e : fl (Real.sqrt ((0 : ℚ) : ℝ)) = 0 := by rw [Rat.cast_zero, Real.sqrt_zero, fl_zero]
  rw [Dbl.ofExact_eq (by rw [e]; positivity), e]

theorem div_zero' (q : ℚ) : (Dbl.fin q).div (.fin 0) = Dbl.infOf q := rfl

theorem neg_div' (a b : Dbl) : a.neg.div b = (a.div b).neg := by
  cases a <;> cases b <;> try rfl
  case fin.fin x y =>
    show (if y = 0 then Dbl.infOf (-x) else Dbl.ofExact (-x / y)) = (if y = 0 then Dbl.infOf x else Dbl.ofExact (x / y)).neg
    split
    · rw [Dbl.neg_infOf]
    · rw [neg_div, Dbl.ofExact_neg]
  case ninf.fin y =>
    show (if y < 0 then Dbl.ninf else .pinf) = (if y < 0 then Dbl.pinf else .ninf).neg
    split <;> rfl
  case pinf.fin y =>
    show (if y < 0 then Dbl.pinf else .ninf) = (if y < 0 then Dbl.ninf else .pinf).neg
    split <;> rfl

theorem negD_cross (a b : V3 Dbl) : crossD (negD a) b = negD (crossD a b) := by
  unfold crossD negD
  dsimp only
  simp only [Dbl.neg_mul', Dbl.sub, Dbl.neg_add']

theorem negD_negD (a : V3 Dbl) : negD (negD a) = a := by
  unfold negD
  simp only [Dbl.neg_neg']

theorem dotD_negD (o : SumOrder) (a : V3 Dbl) : dotD o (negD a) (negD a) = dotD o a a := by
  have h : ∀ x : Dbl, x.neg.mul x.neg = x.mul x := fun x => by rw [Dbl.neg_mul', Dbl.mul_comm', Dbl.neg_mul', Dbl.neg_neg']
  unfold dotD negD
  dsimp only
  rw [h, h, h]

/-- C89: reversing the triangle reverses the normal, for all doubles, infinities and NaN included (up to the sign of zeros, which is not modelled). -/
theorem C89_reverse (o : SumOrder) (p q r : V3 Dbl) : normalToD o r q p = negD (normalToD o p q r) := by
  have e : crossD (vecD r q) (vecD q p) = negD (crossD (vecD p q) (vecD q r)) := by
    have h1 : vecD r q = negD (vecD q r) := (C88_symmetry o q r).2.2.1
    have h2 : vecD q p = negD (vecD p q) := (C88_symmetry o p q).2.2.1
    rw [h1, h2, negD_cross, (C88_symmetry o (vecD q r) _).2.2.2.1, negD_cross, negD_negD]
  unfold normalToD
  rw [e]
  unfold normD
  rw [dotD_negD]
  unfold divsD negD
  dsimp only
  rw [neg_div', neg_div', neg_div']

/-- C89: when the computed cross product is zero the result is not a number in all coordinates. -/
theorem C89_zero (o : SumOrder) (p q r : V3 Dbl) (h : crossD (vecD p q) (vecD q r) = (⟨0, 0, 0⟩ : V3 ℚ).toDbl) : normalToD o p q r = ⟨.nan, .nan, .nan⟩ := by
  have hd : dotD o (⟨0, 0, 0⟩ : V3 ℚ).toDbl (⟨0, 0, 0⟩ : V3 ℚ).toDbl = .fin 0 := by cases o <;> decide +kernel
  unfold normalToD
  rw [h]
  unfold normD
  rw [hd, sqrt_zero']
  rfl

/-! ### The error of a normalised vector -/

/-- Zero, or an absolute value from 2^-500 to 2^500: neither the square nor the sum of three squares overflows or loses digits. -/
def Moderate (q : ℚ) : Prop := q = 0 ∨ (2 ^ (-500 : ℤ) ≤ |q| ∧ |q| ≤ 2 ^ (500 : ℤ))

theorem moderate_sq {q : ℚ} (h : Moderate q) : q * q ≤ 2 ^ (1000 : ℤ) ∧ (q = 0 ∨ 2 ^ (-1000 : ℤ) ≤ q * q) := by
  rcases h with rfl | ⟨h1, h2⟩
  · exact ⟨by rw [mul_zero]; exact (two_zpow_pos _).le, .inl rfl⟩
  · rw [← abs_mul_abs_self q, show (1000 : ℤ) = 500 + 500 by norm_num, show (-(500 + 500) : ℤ) = -500 + -500 by norm_num, zpow_add₀ (by norm_num), zpow_add₀ (by norm_num)]
    exact ⟨mul_le_mul h2 h2 (abs_nonneg _) (two_zpow_pos _).le, .inr (mul_le_mul h1 h1 (two_zpow_pos _).le (abs_nonneg _))⟩

theorem bits_zpow {e : ℤ} (h : -1074 ≤ e) : Bits (2 ^ e) := ⟨1, e, by norm_num, h, by norm_num⟩

theorem fl_le_zpow {x : ℚ} {e : ℤ} (he : -1074 ≤ e) (h : x ≤ 2 ^ e) : fl x ≤ 2 ^ e := fl_le (bits_zpow he) (by rw [Rat.cast_id]; exact h)

theorem zpow_lt_big {e : ℤ} (h : e < 1024) : (2 : ℚ) ^ e < 2 ^ 1024 := by
  rw [← zpow_natCast]
  exact zpow_lt_zpow_right₀ (by norm_num) (by exact_mod_cast h)

/-- A rounded sum of three rounded products is finite. -/
theorem sum_finite {p1 p2 p3 : ℚ} (h1 : 0 ≤ p1) (h2 : 0 ≤ p2) (h3 : 0 ≤ p3) (b1 : p1 ≤ 2 ^ (1000 : ℤ)) (b2 : p2 ≤ 2 ^ (1000 : ℤ)) (b3 : p3 ≤ 2 ^ (1000 : ℤ)) :
    ((Dbl.ofExact p1).add (Dbl.ofExact p2)).add (Dbl.ofExact p3) = .fin (fl (fl (fl p1 + fl p2) + fl p3)) := by
  have two : ∀ {e : ℤ} {x y : ℚ}, x ≤ 2 ^ e → y ≤ 2 ^ e → x + y ≤ 2 ^ (e + 1) := fun hx hy => by
    rw [zpow_add₀ (by norm_num), zpow_one]; linarith
  have f1 := fl_le_zpow (by norm_num) b1
  have f2 := fl_le_zpow (by norm_num) b2
  have f3 := fl_le_zpow (by norm_num) b3
  have n1 := fl_nonneg h1
  have n2 := fl_nonneg h2
  have n3 := fl_nonneg h3
  have g1 : fl (fl p1 + fl p2) ≤ 2 ^ (1001 : ℤ) := fl_le_zpow (by norm_num) (by simpa using two f1 f2)
  have n4 : 0 ≤ fl (fl p1 + fl p2) := fl_nonneg (add_nonneg n1 n2)
  have f3' : fl p3 ≤ 2 ^ (1001 : ℤ) := f3.trans (zpow_le_zpow_right₀ (by norm_num) (by norm_num))
  have g2 : fl (fl (fl p1 + fl p2) + fl p3) ≤ 2 ^ (1002 : ℤ) := fl_le_zpow (by norm_num) (by simpa using two g1 f3')
  have n5 : 0 ≤ fl (fl (fl p1 + fl p2) + fl p3) := fl_nonneg (add_nonneg n4 n3)
  have fin : ∀ {e : ℤ} {x : ℚ}, e < 1024 → 0 ≤ x → x ≤ 2 ^ e → |x| < 2 ^ 1024 := fun he h0 h => by
    rw [abs_of_nonneg h0]; exact lt_of_le_of_lt h (zpow_lt_big he)
  rw [Dbl.ofExact_eq (fin (by norm_num) n1 f1), Dbl.ofExact_eq (fin (by norm_num) n2 f2), Dbl.ofExact_eq (fin (by norm_num) n3 f3), Dbl.add_fin,
    Dbl.ofExact_eq (fin (by norm_num) n4 g1), Dbl.add_fin, Dbl.ofExact_eq (fin (by norm_num) n5 g2)]

/-- The computed square of the length. -/
theorem dot_moderate (o : SumOrder) (c : V3 ℚ) (hx : Moderate c.x) (hy : Moderate c.y) (hz : Moderate c.z) (h0 : c ≠ ⟨0, 0, 0⟩) :
    ∃ d : ℚ, dotD o c.toDbl c.toDbl = .fin d ∧ |d - V3.dot c c| ≤ 2 ^ (-50 : ℤ) * V3.dot c c ∧ 2 ^ (-1000 : ℤ) ≤ V3.dot c c ∧ V3.dot c c ≤ 2 ^ (1002 : ℤ) := by
  have ex := moderate_sq hx
  have ey := moderate_sq hy
  have ez := moderate_sq hz
  have hf : ∃ d : ℚ, dotD o c.toDbl c.toDbl = .fin d := by
    unfold dotD V3.toDbl
    dsimp only
    rw [Dbl.mul_fin, Dbl.mul_fin, Dbl.mul_fin]
    cases o with
    | xyz => exact ⟨_, sum_finite (mul_self_nonneg _) (mul_self_nonneg _) (mul_self_nonneg _) ex.1 ey.1 ez.1⟩
    | zyx => exact ⟨_, sum_finite (mul_self_nonneg _) (mul_self_nonneg _) (mul_self_nonneg _) ez.1 ey.1 ex.1⟩
    | xzy => exact ⟨_, sum_finite (mul_self_nonneg _) (mul_self_nonneg _) (mul_self_nonneg _) ex.1 ez.1 ey.1⟩
  obtain ⟨d, hd⟩ := hf
  have herr := C88_dot_error o c c d hd
  rw [abs_mul_self, abs_mul_self, abs_mul_self] at herr
  have nx := mul_self_nonneg c.x
  have ny := mul_self_nonneg c.y
  have nz := mul_self_nonneg c.z
  have hlow : 2 ^ (-1000 : ℤ) ≤ V3.dot c c := by
    unfold V3.dot
    rcases ex.2 with h1 | h1
    · rcases ey.2 with h2 | h2
      · rcases ez.2 with h3 | h3
        · exact absurd (V3.ext h1 h2 h3) h0
        · linarith
      · linarith
    · linarith
  refine ⟨d, hd, ?_, hlow, ?_⟩
  · have e1 : (2 : ℚ) ^ (-50 : ℤ) = 2 ^ (-51 : ℤ) + 2 ^ (-51 : ℤ) := by norm_num
    have e2 : (2 : ℚ) ^ (-1073 : ℤ) ≤ 2 ^ (-51 : ℤ) * 2 ^ (-1000 : ℤ) := by
      rw [← zpow_add₀ (by norm_num)]
      exact zpow_le_zpow_right₀ (by norm_num) (by norm_num)
    have e3 : (2 : ℚ) ^ (-51 : ℤ) * 2 ^ (-1000 : ℤ) ≤ 2 ^ (-51 : ℤ) * V3.dot c c := mul_le_mul_of_nonneg_left hlow (two_zpow_pos _).le
    rw [e1, add_mul]
    refine herr.trans ?_
    unfold V3.dot at e3 ⊢
    linarith
  · rw [show (1002 : ℤ) = 1000 + 2 by norm_num, zpow_add₀ (by norm_num)]
    have : (2 : ℚ) ^ (2 : ℤ) = 4 := by norm_num
    rw [this]
    have p : (0 : ℚ) < 2 ^ (1000 : ℤ) := two_zpow_pos _
    unfold V3.dot
    linarith [ex.1, ey.1, ez.1]

/-- A rounded quotient by a number close to `N`. -/
theorem quotient_near {a s : ℚ} {N : ℝ} (hs : (s : ℝ) ≤ 2 ^ (503 : ℤ)) (hN : 0 < N) (ha : Moderate a) (haN : |(a : ℝ)| ≤ N)
    (h : |(s : ℝ) - N| ≤ (2 ^ (-50 : ℤ) + 2 ^ (-52 : ℤ)) * N) : Near (2 ^ (-49 : ℤ)) ((Dbl.fin a).div (.fin s)) (a / N) := by
  have hs1 : N / 2 ≤ s := by
    have := (abs_le.1 h).1
    norm_num at this
    linarith
  have hs0 : (0 : ℝ) < s := by linarith
  have hs0' : (0 : ℚ) < s := by exact_mod_cast hs0
  have hq : (Dbl.fin a).div (.fin s) = Dbl.ofExact (a / s) := by
    show (if s = 0 then Dbl.infOf a else Dbl.ofExact (a / s)) = _
    rw [if_neg (ne_of_gt hs0')]
  rw [hq]
  rcases ha with rfl | ⟨ha1, ha2⟩
  · rw [zero_div, Dbl.ofExact_zero, Rat.cast_zero, zero_div]
    exact ⟨0, rfl, by norm_num⟩
  have hcast : |((a / s : ℚ) : ℝ)| = |(a : ℝ)| / s := by push_cast; rw [abs_div, abs_of_pos hs0]
  have hle2 : |((a / s : ℚ) : ℝ)| ≤ 2 := by
    rw [hcast, div_le_iff₀ hs0]
    linarith
  have hle2' : |a / s| ≤ 2 := by exact_mod_cast hle2
  have hfin : |fl (a / s)| < 2 ^ 1024 := by
    have b2 : Bits 2 := ⟨2, 0, by norm_num, by norm_num, by norm_num⟩
    have h1 : fl (a / s) ≤ 2 := fl_le b2 (by rw [Rat.cast_id]; exact (abs_le.1 hle2').2)
    have h2 : -2 ≤ fl (a / s) := le_fl b2.neg (by rw [Rat.cast_id]; exact (abs_le.1 hle2').1)
    refine lt_of_le_of_lt (abs_le.2 ⟨h2, h1⟩) ?_
    norm_num
  rw [Dbl.ofExact_eq hfin]
  refine ⟨_, rfl, ?_⟩
  have ha1' : (2 : ℝ) ^ (-500 : ℤ) ≤ |(a : ℝ)| := by
    have := (Rat.cast_le (K := ℝ)).2 ha1
    rwa [zpow_cast, Rat.cast_abs] at this
  have hlow : (2 : ℚ) ^ (-1022 : ℤ) ≤ |a / s| := by
    have : (2 : ℝ) ^ (-1022 : ℤ) ≤ |((a / s : ℚ) : ℝ)| := by
      rw [hcast, le_div_iff₀ hs0]
      calc (2 : ℝ) ^ (-1022 : ℤ) * s ≤ 2 ^ (-1022 : ℤ) * 2 ^ (503 : ℤ) := mul_le_mul_of_nonneg_left hs (two_zpow_pos _).le
        _ = 2 ^ (-519 : ℤ) := by rw [← zpow_add₀ (by norm_num)]; norm_num
        _ ≤ 2 ^ (-500 : ℤ) := zpow_le_zpow_right₀ (by norm_num) (by norm_num)
        _ ≤ _ := ha1'
    rw [← zpow_cast (K := ℝ), ← Rat.cast_abs] at this
    exact Rat.cast_le.1 this
  have hr := fl_rel (K := ℚ) hlow
  rw [Rat.cast_id] at hr
  have hr' : |((fl (a / s) : ℚ) : ℝ) - a / s| ≤ 2 ^ (-53 : ℤ) * |(a : ℝ) / s| := by
    have := (Rat.cast_le (K := ℝ)).2 hr
    rwa [Rat.cast_mul, zpow_cast, Rat.cast_abs, Rat.cast_abs, Rat.cast_sub, Rat.cast_div] at this
  have hd : |(a : ℝ) / s - a / N| = |(a : ℝ) / s| * (|(s : ℝ) - N| / N) := by
    rw [← abs_of_pos hN, ← abs_div, ← abs_mul, abs_of_pos hN, ← abs_neg]
    congr 1
    field_simp
    ring
  have hk : |(s : ℝ) - N| / N ≤ 2 ^ (-50 : ℤ) + 2 ^ (-52 : ℤ) := by rw [div_le_iff₀ hN]; exact h
  have hq2 : |(a : ℝ) / s| ≤ |(a : ℝ) / N| + |(a : ℝ) / s - a / N| := by
    have := abs_add_le ((a : ℝ) / N) ((a : ℝ) / s - a / N)
    rwa [add_sub_cancel] at this
  have htri : |((fl (a / s) : ℚ) : ℝ) - a / N| ≤ |((fl (a / s) : ℚ) : ℝ) - a / s| + |(a : ℝ) / s - a / N| := abs_sub_le _ _ _
  have hm : |(a : ℝ) / s| * (|(s : ℝ) - N| / N) ≤ |(a : ℝ) / s| * (2 ^ (-50 : ℤ) + 2 ^ (-52 : ℤ)) := mul_le_mul_of_nonneg_left hk (abs_nonneg _)
  rw [← hd] at hm
  have n1 := abs_nonneg ((a : ℝ) / N)
  generalize |((fl (a / s) : ℚ) : ℝ) - a / N| = T at *
  generalize |((fl (a / s) : ℚ) : ℝ) - a / s| = T1 at *
  generalize |(a : ℝ) / s - a / N| = T2 at *
  generalize |(a : ℝ) / s| = T3 at *
  generalize |(a : ℝ) / N| = T4 at *
  norm_num at hr' hm ⊢
  linarith

/-- The computed length of a vector. -/
theorem norm_near (o : SumOrder) (c : V3 ℚ) (hx : Moderate c.x) (hy : Moderate c.y) (hz : Moderate c.z) (h0 : c ≠ ⟨0, 0, 0⟩) :
    ∃ s : ℚ, normD o c.toDbl = .fin s ∧ (s : ℝ) ≤ 2 ^ (503 : ℤ) ∧ 0 < V3.norm (realPoint c) ∧
      |(s : ℝ) - V3.norm (realPoint c)| ≤ (2 ^ (-50 : ℤ) + 2 ^ (-52 : ℤ)) * V3.norm (realPoint c) := by
  obtain ⟨d, hd, herr, hlo, hhi⟩ := dot_moderate o c hx hy hz h0
  have hcc : V3.dot (realPoint c) (realPoint c) = ((V3.dot c c : ℚ) : ℝ) := by unfold V3.dot realPoint; push_cast; rfl
  have herr' : |(d : ℝ) - V3.dot (realPoint c) (realPoint c)| ≤ 2 ^ (-50 : ℤ) * V3.dot (realPoint c) (realPoint c) := by
    have := (Rat.cast_le (K := ℝ)).2 herr
    rw [Rat.cast_mul, zpow_cast, Rat.cast_abs, Rat.cast_sub] at this
    rw [hcc]; exact this
  have hlo' : (2 : ℝ) ^ (-1000 : ℤ) ≤ V3.dot (realPoint c) (realPoint c) := by 
    have := (Rat.cast_le (K := ℝ)).2 hlo
    rw [zpow_cast] at this
    rw [hcc]; exact this
  have hhi' : V3.dot (realPoint c) (realPoint c) ≤ (2 : ℝ) ^ (1002 : ℤ) := by
    have := (Rat.cast_le (K := ℝ)).2 hhi
    rw [zpow_cast] at this
    rw [hcc]; exact this
  unfold V3.norm
  generalize V3.dot (realPoint c) (realPoint c) = D at *
  have hD0 : 0 < D := lt_of_lt_of_le (two_zpow_pos _) hlo'
  have hd1 : D / 2 ≤ d := by
    have := (abs_le.1 herr').1
    norm_num at this
    linarith
  have hd2 : (d : ℝ) ≤ 2 * D := by
    have := (abs_le.1 herr').2
    norm_num at this
    linarith
  have hd0 : (0 : ℝ) < d := by linarith
  have hd0' : ¬ d < 0 := not_lt.2 (by exact_mod_cast hd0.le)
  have hsq : normD o c.toDbl = Dbl.ofExact (Real.sqrt (d : ℝ)) := by
    unfold normD
    rw [hd]
    show (if d < 0 then Dbl.nan else Dbl.ofExact (Real.sqrt (d : ℝ))) = _
    rw [if_neg hd0']
  have hsd : Real.sqrt (d : ℝ) ≤ 2 ^ (502 : ℤ) := by
    rw [Real.sqrt_le_left (two_zpow_pos _).le, ← zpow_natCast, ← zpow_mul]
    refine hd2.trans ?_
    calc 2 * D ≤ 2 * 2 ^ (1002 : ℤ) := by linarith
      _ = 2 ^ (1003 : ℤ) := by rw [show (1003 : ℤ) = 1 + 1002 by norm_num, zpow_add₀ (by norm_num), zpow_one]
      _ ≤ _ := zpow_le_zpow_right₀ (by norm_num) (by norm_num)
  have hsl : (2 : ℝ) ^ (-1022 : ℤ) ≤ |Real.sqrt (d : ℝ)| := by
    rw [abs_of_nonneg (Real.sqrt_nonneg _)]
    apply Real.le_sqrt_of_sq_le
    rw [← zpow_natCast, ← zpow_mul]
    refine le_trans ?_ hd1
    refine le_trans ?_ (div_le_div_of_nonneg_right hlo' (by norm_num))
    rw [le_div_iff₀ (by norm_num), ← zpow_add_one₀ (by norm_num)]
    exact zpow_le_zpow_right₀ (by norm_num) (by norm_num)
  have hrel := fl_rel hsl
  have hf1 : fl (Real.sqrt (d : ℝ)) ≤ 2 ^ (502 : ℤ) := fl_le (bits_zpow (by norm_num)) (by rw [zpow_cast]; exact hsd)
  have hf0 : 0 ≤ fl (Real.sqrt (d : ℝ)) := fl_nonneg (Real.sqrt_nonneg _)
  refine ⟨fl (Real.sqrt (d : ℝ)), ?_, ?_, Real.sqrt_pos.2 hD0, ?_⟩
  · rw [hsq, Dbl.ofExact_eq]
    rw [abs_of_nonneg hf0]
    exact lt_of_le_of_lt hf1 (zpow_lt_big (by norm_num))
  · have : ((fl (Real.sqrt (d : ℝ)) : ℚ) : ℝ) ≤ ((2 ^ (502 : ℤ) : ℚ) : ℝ) := by exact_mod_cast hf1
    rw [zpow_cast] at this
    exact this.trans (zpow_le_zpow_right₀ (by norm_num) (by norm_num))
  · have hN : 0 < Real.sqrt D := Real.sqrt_pos.2 hD0
    have hS : 0 ≤ Real.sqrt (d : ℝ) := Real.sqrt_nonneg _
    have e1 : (Real.sqrt (d : ℝ) - Real.sqrt D) * (Real.sqrt (d : ℝ) + Real.sqrt D) = d - D := by
      have a := Real.mul_self_sqrt hd0.le
      have b := Real.mul_self_sqrt hD0.le
      linear_combination a - b
    have e2 : |Real.sqrt (d : ℝ) - Real.sqrt D| ≤ 2 ^ (-50 : ℤ) * Real.sqrt D := by
      have h1 : |Real.sqrt (d : ℝ) - Real.sqrt D| * (Real.sqrt (d : ℝ) + Real.sqrt D) ≤ 2 ^ (-50 : ℤ) * D := by
        rw [← abs_of_nonneg (add_nonneg hS hN.le), ← abs_mul, e1]; exact herr'
      have h2 : |Real.sqrt (d : ℝ) - Real.sqrt D| * Real.sqrt D ≤ |Real.sqrt (d : ℝ) - Real.sqrt D| * (Real.sqrt (d : ℝ) + Real.sqrt D) :=
        mul_le_mul_of_nonneg_left (by linarith) (abs_nonneg _)
      have h3 : 2 ^ (-50 : ℤ) * D = (2 ^ (-50 : ℤ) * Real.sqrt D) * Real.sqrt D := by rw [mul_assoc, Real.mul_self_sqrt hD0.le]
      rw [h3] at h1
      exact le_of_mul_le_mul_right (h2.trans h1) hN
    rw [abs_of_nonneg hS] at hrel
    have e3 : Real.sqrt (d : ℝ) ≤ Real.sqrt D + |Real.sqrt (d : ℝ) - Real.sqrt D| := by
      have := le_abs_self (Real.sqrt (d : ℝ) - Real.sqrt D); linarith
    have htri : |((fl (Real.sqrt (d : ℝ)) : ℚ) : ℝ) - Real.sqrt D| ≤ |((fl (Real.sqrt (d : ℝ)) : ℚ) : ℝ) - Real.sqrt (d : ℝ)| + |Real.sqrt (d : ℝ) - Real.sqrt D| := abs_sub_le _ _ _
    generalize |((fl (Real.sqrt (d : ℝ)) : ℚ) : ℝ) - Real.sqrt D| = T at *
    generalize |((fl (Real.sqrt (d : ℝ)) : ℚ) : ℝ) - Real.sqrt (d : ℝ)| = T1 at *
    generalize |Real.sqrt (d : ℝ) - Real.sqrt D| = T2 at *
    generalize Real.sqrt (d : ℝ) = S at *
    generalize Real.sqrt D = N at *
    norm_num at hrel e2 ⊢
    linarith

/-- A normalised vector: within 2^-49 of the exact one. -/
theorem unit_near (o : SumOrder) (c : V3 ℚ) (hx : Moderate c.x) (hy : Moderate c.y) (hz : Moderate c.z) (h0 : c ≠ ⟨0, 0, 0⟩) :
    NearPoint (2 ^ (-49 : ℤ)) (divsD c.toDbl (normD o c.toDbl)) (V3.divs (realPoint c) (V3.norm (realPoint c))) := by
  obtain ⟨s, h1, h2, h3, h4⟩ := norm_near o c hx hy hz h0
  rw [h1]
  have hc : ∀ a : ℝ, a * a ≤ V3.dot (realPoint c) (realPoint c) → |a| ≤ V3.norm (realPoint c) := fun a ha => by
    unfold V3.norm
    rw [← Real.sqrt_mul_self_eq_abs]
    exact Real.sqrt_le_sqrt ha
  have nx := mul_self_nonneg (c.x : ℝ)
  have ny := mul_self_nonneg (c.y : ℝ)
  have nz := mul_self_nonneg (c.z : ℝ)
  exact ⟨quotient_near h2 h3 hx (hc _ (by unfold V3.dot realPoint; dsimp only; linarith)) h4, quotient_near h2 h3 hy (hc _ (by unfold V3.dot realPoint; dsimp only; linarith)) h4,
    quotient_near h2 h3 hz (hc _ (by unfold V3.dot realPoint; dsimp only; linarith)) h4⟩

/-- C89, the part that holds for all doubles: when the computed cross product of the two sides is not zero and its coordinates are zero or between 2^-500 and 2^500, the result is
that vector divided by its length, up to 2^-49, whatever the order of the sum. -/
theorem C89_unit_partial (o : SumOrder) (p q r : V3 ℚ) (c : V3 ℚ) (hc : crossD (vecD p.toDbl q.toDbl) (vecD q.toDbl r.toDbl) = c.toDbl)
    (hx : Moderate c.x) (hy : Moderate c.y) (hz : Moderate c.z) (h0 : c ≠ ⟨0, 0, 0⟩) :
    NearPoint (2 ^ (-49 : ℤ)) (normalToD o p.toDbl q.toDbl r.toDbl) (V3.divs (realPoint c) (V3.norm (realPoint c))) := by
  unfold normalToD
  rw [hc]
  exact unit_near o c hx hy hz h0

theorem scaled_moderate {s : ℤ} {q : ℚ} (h : Scaled s (2 ^ 51) q) (h1 : -500 ≤ s) (h2 : s ≤ 449) : Moderate q := by
  obtain ⟨n, hn, rfl⟩ := h
  by_cases h0 : n = 0
  · left; rw [h0]; norm_num
  · right
    have hp := two_zpow_pos (K := ℚ) s
    have h3 : (1 : ℚ) ≤ |(n : ℚ)| := by exact_mod_cast Int.one_le_abs h0
    have h4 : |(n : ℚ)| ≤ 2 ^ 51 := by exact_mod_cast hn
    rw [abs_mul, abs_of_pos hp]
    constructor
    · calc (2 : ℚ) ^ (-500 : ℤ) ≤ 2 ^ s := zpow_le_zpow_right₀ (by norm_num) h1
        _ = 1 * 2 ^ s := (one_mul _).symm
        _ ≤ _ := mul_le_mul_of_nonneg_right h3 hp.le
    · calc |(n : ℚ)| * 2 ^ s ≤ 2 ^ 51 * 2 ^ s := mul_le_mul_of_nonneg_right h4 hp.le
        _ = 2 ^ (51 + s) := by rw [zpow_add₀ (by norm_num)]; norm_num
        _ ≤ _ := zpow_le_zpow_right₀ (by norm_num) (by omega)

/-- C89, the part that holds on a grid: with integer coordinates up to 2^24 in a unit that is a power of two, the result is not a number exactly for collinear points, and otherwise
it is the unit normal of C02 up to 2^-49, whatever the order of the sum. -/
theorem C89_grid_partial (o : SumOrder) (s : ℤ) (h1 : -250 ≤ s) (h2 : s ≤ 224) (p q r : V3 ℚ) (hp : ScaledPoint s (2 ^ 24) p) (hq : ScaledPoint s (2 ^ 24) q)
    (hr : ScaledPoint s (2 ^ 24) r) :
    (Collinear3 (realPoint p) (realPoint q) (realPoint r) ↔ normalToD o p.toDbl q.toDbl r.toDbl = ⟨.nan, .nan, .nan⟩) ∧
    (¬ Collinear3 (realPoint p) (realPoint q) (realPoint r) →
      NearPoint (2 ^ (-49 : ℤ)) (normalToD o p.toDbl q.toDbl r.toDbl) (normalTo (realPoint p) (realPoint q) (realPoint r))) := by
  have sub25 : ∀ {a b : V3 ℚ}, ScaledPoint s (2 ^ 24) a → ScaledPoint s (2 ^ 24) b → ScaledPoint s (2 ^ 25) (V3.sub a b) := by
    rintro a b ⟨a1, a2, a3⟩ ⟨b1, b2, b3⟩
    exact ⟨(a1.sub b1).mono (by norm_num), (a2.sub b2).mono (by norm_num), (a3.sub b3).mono (by norm_num)⟩
  have up : ∀ {a : V3 ℚ}, ScaledPoint s (2 ^ 24) a → ScaledPoint s (2 ^ 25) a := by
    rintro a ⟨a1, a2, a3⟩
    exact ⟨a1.mono (by norm_num), a2.mono (by norm_num), a3.mono (by norm_num)⟩
  have v1 : vecD p.toDbl q.toDbl = (V3.sub q p).toDbl := (C88_exact_partial o s (by omega) (by omega) q p (up hq) (up hp)).2.1
  have v2 : vecD q.toDbl r.toDbl = (V3.sub r q).toDbl := (C88_exact_partial o s (by omega) (by omega) r q (up hr) (up hq)).2.1
  have s1 := sub25 hq hp
  have s2 := sub25 hr hq
  have hc : crossD (vecD p.toDbl q.toDbl) (vecD q.toDbl r.toDbl) = (V3.cross (V3.sub q p) (V3.sub r q)).toDbl := by
    rw [v1, v2]
    exact (C88_exact_partial o s (by omega) (by omega) _ _ s1 s2).2.2.2
  set c := V3.cross (V3.sub q p) (V3.sub r q) with hcdef
  have hcR : V3.cross (V3.sub (realPoint q) (realPoint p)) (V3.sub (realPoint r) (realPoint q)) = realPoint c := by
    rw [hcdef]
    unfold realPoint V3.cross V3.sub
    push_cast
    rfl
  have hmod : Moderate c.x ∧ Moderate c.y ∧ Moderate c.z := by
    obtain ⟨a1, a2, a3⟩ := s1
    obtain ⟨b1, b2, b3⟩ := s2
    exact ⟨scaled_moderate (((a2.mul b3).sub (a3.mul b2)).mono (by norm_num)) (by omega) (by omega),
      scaled_moderate (((a3.mul b1).sub (a1.mul b3)).mono (by norm_num)) (by omega) (by omega),
      scaled_moderate (((a1.mul b2).sub (a2.mul b1)).mono (by norm_num)) (by omega) (by omega)⟩
  have hcol : Collinear3 (realPoint p) (realPoint q) (realPoint r) ↔ c = ⟨0, 0, 0⟩ := by
    unfold Collinear3
    rw [hcR]
    constructor
    · intro h
      unfold realPoint V3.zero at h
      injection h with h1 h2 h3
      exact V3.ext (by exact_mod_cast h1) (by exact_mod_cast h2) (by exact_mod_cast h3)
    · intro h
      rw [h]
      unfold realPoint V3.zero
      norm_num
  have hgood : c ≠ ⟨0, 0, 0⟩ → NearPoint (2 ^ (-49 : ℤ)) (normalToD o p.toDbl q.toDbl r.toDbl) (normalTo (realPoint p) (realPoint q) (realPoint r)) := by
    intro h0
    have := C89_unit_partial o p q r c hc hmod.1 hmod.2.1 hmod.2.2 h0
    have e : normalTo (realPoint p) (realPoint q) (realPoint r) = V3.divs (realPoint c) (V3.norm (realPoint c)) := by
      rw [← hcR]; rfl
    rwa [e]
  refine ⟨⟨fun h => C89_zero o _ _ _ (by rw [hc, hcol.1 h]), fun h => ?_⟩, fun h => hgood fun h0 => h (hcol.2 h0)⟩
  by_contra hn
  obtain ⟨⟨x, hx, _⟩, _⟩ := hgood fun h0 => hn (hcol.2 h0)
  rw [h] at hx
  cases hx

/-! ### What goes wrong -/

theorem sqrt_zpow (e : ℤ) (h1 : -1074 ≤ e) (h2 : e < 1024) : (Dbl.fin (2 ^ (2 * e))).sqrt = .fin (2 ^ e) := by
  show (if (2 : ℚ) ^ (2 * e) < 0 then Dbl.nan else Dbl.ofExact (Real.sqrt (((2 : ℚ) ^ (2 * e) : ℚ) : ℝ))) = _
  rw [if_neg (not_lt.2 (two_zpow_pos _).le)]
  have e1 : Real.sqrt (((2 : ℚ) ^ (2 * e) : ℚ) : ℝ) = 2 ^ e := by
    rw [zpow_cast, mul_comm, zpow_mul]
    exact Real.sqrt_sq (two_zpow_pos _).le
  have e2 : fl (Real.sqrt (((2 : ℚ) ^ (2 * e) : ℚ) : ℝ)) = 2 ^ e := by rw [e1, fl_pow h1]
  rw [Dbl.ofExact_eq (by rw [e2, abs_of_pos (two_zpow_pos _)]; exact zpow_lt_big h2), e2]

theorem normalToD_eq {o : SumOrder} {p q r : V3 Dbl} {c d : V3 Dbl} {n : Dbl} (h1 : crossD (vecD p q) (vecD q r) = c) (h2 : (dotD o c c).sqrt = n)
    (h3 : divsD c n = d) : normalToD o p q r = d := by
  unfold normalToD normD
  rw [h1, h2, h3]

theorem double_int (m e : ℤ) {q : ℚ} (h : q = m * 2 ^ e) (hm : |m| < 2 ^ 53) (h1 : -1074 ≤ e) (h2 : e ≤ 971) : IsDouble q := ⟨m, e, hm, h1, h2, h⟩

/-- C89 fails in every way it can: collinear points with a normal; points that are not collinear and have none; a normal that points to the wrong side; a null vector because
the square of the length overflows; infinity because it underflows. -/
theorem C89_refuted_each :
    (∃ p q r : V3 ℚ, DoublePoint p ∧ DoublePoint q ∧ DoublePoint r ∧ Collinear3 (realPoint p) (realPoint q) (realPoint r) ∧
      ∀ o, normalToD o p.toDbl q.toDbl r.toDbl = (⟨0, 0, 1⟩ : V3 ℚ).toDbl) ∧
    (∃ p q r : V3 ℚ, DoublePoint p ∧ DoublePoint q ∧ DoublePoint r ∧ ¬ Collinear3 (realPoint p) (realPoint q) (realPoint r) ∧
      ∀ o, normalToD o p.toDbl q.toDbl r.toDbl = ⟨.nan, .nan, .nan⟩) ∧
    (∃ p q r : V3 ℚ, DoublePoint p ∧ DoublePoint q ∧ DoublePoint r ∧ (normalTo (realPoint p) (realPoint q) (realPoint r)).z < 0 ∧
      ∀ o, normalToD o p.toDbl q.toDbl r.toDbl = (⟨0, 0, 1⟩ : V3 ℚ).toDbl) ∧
    (∃ p q r : V3 ℚ, DoublePoint p ∧ DoublePoint q ∧ DoublePoint r ∧ ¬ Collinear3 (realPoint p) (realPoint q) (realPoint r) ∧
      ∀ o, normalToD o p.toDbl q.toDbl r.toDbl = (⟨0, 0, 0⟩ : V3 ℚ).toDbl) ∧
    ∃ p q r : V3 ℚ, DoublePoint p ∧ DoublePoint q ∧ DoublePoint r ∧ ¬ Collinear3 (realPoint p) (realPoint q) (realPoint r) ∧
      ∀ o, normalToD o p.toDbl q.toDbl r.toDbl = ⟨.nan, .nan, .pinf⟩ := by
  have i : ∀ (m : ℤ), |m| < 2 ^ 53 → IsDouble m := fun m hm => double_int m 0 (by norm_num) hm (by norm_num) (by norm_num)
  have t : ∀ (m : ℤ) (e : ℤ), |m| < 2 ^ 53 → -1074 ≤ e → e ≤ 971 → IsDouble (m * 2 ^ e) := fun m e hm h1 h2 => double_int m e rfl hm h1 h2
  have i1 := i 1 (by norm_num)
  have i3 := i 3 (by norm_num)
  have i4 := i 4 (by norm_num)
  have i12 := i 12 (by norm_num)
  have i2 := i 2 (by norm_num)
  have tip : ∀ (o : SumOrder) (p q r : V3 ℚ), crossD (vecD p.toDbl q.toDbl) (vecD q.toDbl r.toDbl) = (⟨0, 0, 2 ^ (-49 : ℤ)⟩ : V3 ℚ).toDbl →
      normalToD o p.toDbl q.toDbl r.toDbl = (⟨0, 0, 1⟩ : V3 ℚ).toDbl := by
    intro o p q r h
    have hd : dotD o (⟨0, 0, 2 ^ (-49 : ℤ)⟩ : V3 ℚ).toDbl (⟨0, 0, 2 ^ (-49 : ℤ)⟩ : V3 ℚ).toDbl = .fin (2 ^ (2 * (-49) : ℤ)) := by cases o <;> decide +kernel
    exact normalToD_eq h (by rw [hd, sqrt_zpow _ (by norm_num) (by norm_num)]) (by decide +kernel)
  refine ⟨⟨⟨(1 : ℤ) * 2 ^ (-52 : ℤ), (3 : ℤ) * 2 ^ (-52 : ℤ), 0⟩, ⟨(1 : ℤ), (3 : ℤ), 0⟩, ⟨(4 : ℤ), (12 : ℤ), 0⟩, ⟨t 1 _ (by norm_num) (by norm_num) (by norm_num),
      t 3 _ (by norm_num) (by norm_num) (by norm_num), double_0⟩, ⟨i1, i3, double_0⟩, ⟨i4, i12, double_0⟩, ?_, fun o => tip o _ _ _ (by decide +kernel)⟩,
    ⟨⟨(1 : ℤ) * 2 ^ (-60 : ℤ), 0, 0⟩, ⟨(1 : ℤ), (1 : ℤ), 0⟩, ⟨(2 : ℤ), (2 : ℤ), 0⟩, ⟨t 1 _ (by norm_num) (by norm_num) (by norm_num), double_0, double_0⟩,
      ⟨i1, i1, double_0⟩, ⟨i2, i2, double_0⟩, ?_, fun o => C89_zero o _ _ _ (by decide +kernel)⟩,
    ⟨⟨(2 : ℤ) * 2 ^ (-52 : ℤ), (3 : ℤ) * 2 ^ (-52 : ℤ), 0⟩, ⟨(1 : ℤ), (3 : ℤ), 0⟩, ⟨(4 : ℤ), (6755399441055745 : ℤ) * 2 ^ (-49 : ℤ), 0⟩,
      ⟨t 2 _ (by norm_num) (by norm_num) (by norm_num), t 3 _ (by norm_num) (by norm_num) (by norm_num), double_0⟩, ⟨i1, i3, double_0⟩,
      ⟨i4, t _ _ (by norm_num) (by norm_num) (by norm_num), double_0⟩, ?_, fun o => tip o _ _ _ (by decide +kernel)⟩,
    ⟨⟨0, 0, 0⟩, ⟨(1 : ℤ) * 2 ^ (300 : ℤ), 0, 0⟩, ⟨(1 : ℤ) * 2 ^ (300 : ℤ), (1 : ℤ) * 2 ^ (300 : ℤ), 0⟩, ⟨double_0, double_0, double_0⟩,
      ⟨t 1 _ (by norm_num) (by norm_num) (by norm_num), double_0, double_0⟩, ⟨t 1 _ (by norm_num) (by norm_num) (by norm_num), t 1 _ (by norm_num) (by norm_num) (by norm_num), double_0⟩, ?_,
      fun o => ?_⟩,
    ⟨⟨0, 0, 0⟩, ⟨(1 : ℤ) * 2 ^ (-300 : ℤ), 0, 0⟩, ⟨(1 : ℤ) * 2 ^ (-300 : ℤ), (1 : ℤ) * 2 ^ (-300 : ℤ), 0⟩, ⟨double_0, double_0, double_0⟩,
      ⟨t 1 _ (by norm_num) (by norm_num) (by norm_num), double_0, double_0⟩, ⟨t 1 _ (by norm_num) (by norm_num) (by norm_num), t 1 _ (by norm_num) (by norm_num) (by norm_num), double_0⟩, ?_,
      fun o => ?_⟩⟩
  · unfold Collinear3 realPoint V3.cross V3.sub V3.zero
    norm_num
  · unfold Collinear3 realPoint V3.cross V3.sub V3.zero
    norm_num
  · unfold normalTo V3.divs
    refine div_neg_of_neg_of_pos ?_ (Real.sqrt_pos.2 ?_)
    · unfold V3.cross V3.vec realPoint
      norm_num
    · unfold V3.dot V3.cross V3.vec realPoint
      norm_num
  · unfold Collinear3 realPoint V3.cross V3.sub V3.zero
    norm_num
  · exact normalToD_eq (c := (⟨0, 0, 2 ^ (600 : ℤ)⟩ : V3 ℚ).toDbl) (n := .pinf) (by decide +kernel)
      (by rw [show dotD o (⟨0, 0, 2 ^ (600 : ℤ)⟩ : V3 ℚ).toDbl (⟨0, 0, 2 ^ (600 : ℤ)⟩ : V3 ℚ).toDbl = .pinf by cases o <;> decide +kernel]; rfl) (by decide +kernel)
  · unfold Collinear3 realPoint V3.cross V3.sub V3.zero
    norm_num
  · exact normalToD_eq (c := (⟨0, 0, 2 ^ (-600 : ℤ)⟩ : V3 ℚ).toDbl) (n := .fin 0) (by decide +kernel)
      (by rw [show dotD o (⟨0, 0, 2 ^ (-600 : ℤ)⟩ : V3 ℚ).toDbl (⟨0, 0, 2 ^ (-600 : ℤ)⟩ : V3 ℚ).toDbl = .fin 0 by cases o <;> decide +kernel]; exact sqrt_zero') (by decide +kernel)

theorem C89_refuted : ¬ C89_full := by
  intro h
  obtain ⟨⟨p, q, r, hp, hq, hr, hc, hn⟩, _⟩ := C89_refuted_each
  have := (h .xyz p q r hp hq hr).1 hc
  rw [hn] at this
  cases this

/-- The hypotheses of `C89_grid_partial` hold for a triangle with coordinates that are multiples of 1/128, which is not collinear. -/
example : ScaledPoint (-7) (2 ^ 24) ⟨82837 / 64, -5, 128⟩ ∧ ScaledPoint (-7) (2 ^ 24) ⟨0, 1, 1 / 128⟩ ∧ ScaledPoint (-7) (2 ^ 24) ⟨0, 0, 0⟩ ∧
    ¬ Collinear3 (realPoint ⟨82837 / 64, -5, 128⟩) (realPoint ⟨0, 1, 1 / 128⟩) (realPoint ⟨0, 0, 0⟩) := by
  refine ⟨⟨⟨165674, by norm_num, by norm_num⟩, ⟨-640, by norm_num, by norm_num⟩, ⟨16384, by norm_num, by norm_num⟩⟩,
    ⟨⟨0, by norm_num, by norm_num⟩, ⟨128, by norm_num, by norm_num⟩, ⟨1, by norm_num, by norm_num⟩⟩,
    ⟨⟨0, by norm_num, by norm_num⟩, ⟨0, by norm_num, by norm_num⟩, ⟨0, by norm_num, by norm_num⟩⟩, ?_⟩
  unfold Collinear3 realPoint V3.cross V3.sub V3.zero
  norm_num

/-- The hypotheses of `C89_unit_partial` hold for a triangle with the doubles nearest to 0.1, 0.2 and 0.3, whose cross product is rounded. -/
example : ∃ c : V3 ℚ, crossD (vecD (⟨tenths 1, 0, 0⟩ : V3 ℚ).toDbl (⟨0, tenths 2, 0⟩ : V3 ℚ).toDbl) (vecD (⟨0, tenths 2, 0⟩ : V3 ℚ).toDbl (⟨0, 0, tenths 3⟩ : V3 ℚ).toDbl) = c.toDbl ∧
    Moderate c.x ∧ Moderate c.y ∧ Moderate c.z ∧ c ≠ ⟨0, 0, 0⟩ := by
  refine ⟨⟨fl (tenths 2 * tenths 3), fl (tenths 1 * tenths 3), fl (tenths 1 * tenths 2)⟩, by decide +kernel, .inr ⟨?_, ?_⟩, .inr ⟨?_, ?_⟩, .inr ⟨?_, ?_⟩, ?_⟩ <;> decide +kernel

end City.Props
