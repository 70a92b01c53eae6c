import Verif.Lemmas.VecDbl
import Verif.Lemmas.RasterDbl
import Verif.Props.RasterDbl
/-!
C88: vector arithmetic on doubles.
-/
set_option linter.unusedSectionVars false
set_option exponentiation.threshold 2000
namespace City.Props
open City City.Spec V3

/-- The three coordinates are doubles. -/
def DoublePoint (a : V3 ℚ) : Prop := IsDouble a.x ∧ IsDouble a.y ∧ IsDouble a.z

/-- The three coordinates are integers of absolute value at most `N`, in units of `2^s`. -/
def ScaledPoint (s N : ℤ) (a : V3 ℚ) : Prop := Scaled s N a.x ∧ Scaled s N a.y ∧ Scaled s N a.z

/-! ### C88 -/

/-- C88 as stated: the laws of C01 for doubles. False: `C88_refuted`, and each of the four parts fails (`C88_refuted_each`). -/
def C88_full : Prop := ∀ (o : SumOrder) (p q u v : V3 ℚ), DoublePoint p → DoublePoint q → DoublePoint u → DoublePoint v →
  addD p.toDbl (subD q.toDbl p.toDbl) = q.toDbl ∧ addD (addD p.toDbl u.toDbl) v.toDbl = addD p.toDbl (addD u.toDbl v.toDbl) ∧
  crossD p.toDbl p.toDbl = (⟨0, 0, 0⟩ : V3 ℚ).toDbl ∧ dotD o (crossD p.toDbl q.toDbl) p.toDbl = .fin 0

theorem double_pow (e : ℤ) (h1 : -1074 ≤ e) (h2 : e ≤ 971) : IsDouble (2 ^ e) := ⟨1, e, by norm_num, h1, h2, by norm_num⟩

theorem double_1 : IsDouble 1 := by simpa using double_pow 0 (by norm_num) (by norm_num)

theorem double_tenth (n : ℕ) (m e : ℤ) (h : tenths n = m * 2 ^ e) (hm : |m| < 2 ^ 53) (h1 : -1074 ≤ e) (h2 : e ≤ 971) : IsDouble (tenths n) :=
  ⟨m, e, hm, h1, h2, h⟩

/-- C88, each of the four laws fails for some doubles: moving a point by `q - p` does not lead to `q`, translations do not compose, `a ^ a` is not zero (it is not a number), `a ^ b` is
not orthogonal to `a`, whatever the order of the sum. -/
theorem C88_refuted_each :
    (∃ p q : V3 ℚ, DoublePoint p ∧ DoublePoint q ∧ addD p.toDbl (subD q.toDbl p.toDbl) = (⟨0, 0, 0⟩ : V3 ℚ).toDbl ∧ q ≠ ⟨0, 0, 0⟩) ∧
    (∃ p u v : V3 ℚ, DoublePoint p ∧ DoublePoint u ∧ DoublePoint v ∧
      addD (addD p.toDbl u.toDbl) v.toDbl ≠ addD p.toDbl (addD u.toDbl v.toDbl)) ∧
    (∃ a : V3 ℚ, DoublePoint a ∧ crossD a.toDbl a.toDbl = ⟨.nan, .nan, .nan⟩) ∧
    ∃ a b : V3 ℚ, DoublePoint a ∧ DoublePoint b ∧ ∀ o : SumOrder, dotD o (crossD a.toDbl b.toDbl) a.toDbl ≠ .fin 0 := by
  have t : DoublePoint ⟨2 ^ (-60 : ℤ), 0, 0⟩ := ⟨double_pow _ (by norm_num) (by norm_num), double_0, double_0⟩
  have one : DoublePoint ⟨1, 0, 0⟩ := ⟨double_1, double_0, double_0⟩
  have mone : DoublePoint ⟨-1, 0, 0⟩ := ⟨⟨-1, 0, by norm_num, by norm_num, by norm_num, by norm_num⟩, double_0, double_0⟩
  have big : IsDouble (2 ^ (600 : ℤ)) := double_pow 600 (by norm_num) (by norm_num)
  have d1 : IsDouble (tenths 1) := double_tenth 1 7205759403792794 (-56) (by decide +kernel) (by norm_num) (by norm_num) (by norm_num)
  have d2 : IsDouble (tenths 2) := double_tenth 2 7205759403792794 (-55) (by decide +kernel) (by norm_num) (by norm_num) (by norm_num)
  refine ⟨⟨⟨1, 0, 0⟩, ⟨2 ^ (-60 : ℤ), 0, 0⟩, one, t, by decide +kernel, by decide +kernel⟩,
    ⟨⟨2 ^ (-60 : ℤ), 0, 0⟩, ⟨1, 0, 0⟩, ⟨-1, 0, 0⟩, t, one, mone, by decide +kernel⟩, ⟨⟨2 ^ (600 : ℤ), 2 ^ (600 : ℤ), 2 ^ (600 : ℤ)⟩, ⟨big, big, big⟩, by decide +kernel⟩,
    ⟨tenths 1, tenths 1, tenths 1⟩, ⟨tenths 1, tenths 2, tenths 3⟩, ⟨d1, d1, d1⟩, ⟨d1, d2, double_3⟩, ?_⟩
  intro o
  cases o <;> decide +kernel

theorem C88_refuted : ¬ C88_full := by
  intro h
  obtain ⟨⟨p, q, hp, hq, e, hne⟩, _⟩ := C88_refuted_each
  have := (h .xyz p q p p hp hq hp hp).1
  rw [e] at this
  apply hne
  unfold V3.toDbl at this
  injection this with h1 h2 h3
  injection h1 with h1
  injection h2 with h2
  injection h3 with h3
  ext
  · exact h1.symm
  · exact h2.symm
  · exact h3.symm

/-- C88, the laws that hold for all doubles, infinities and NaN included: the sum and the scalar product commute, whatever the order in which the products are added; differences and
cross products change sign when the operands are exchanged; `Vector(p, q)` is `q - p`. -/
theorem C88_symmetry (o : SumOrder) (a b : V3 Dbl) : addD a b = addD b a ∧ dotD o a b = dotD o b a ∧ subD a b = negD (subD b a) ∧
    crossD a b = negD (crossD b a) ∧ vecD a b = subD b a := by
  refine ⟨?_, ?_, ?_, ?_, rfl⟩
  · unfold addD
    rw [Dbl.add_comm' a.x, Dbl.add_comm' a.y, Dbl.add_comm' a.z]
  · unfold dotD
    rw [Dbl.mul_comm' a.x, Dbl.mul_comm' a.y, Dbl.mul_comm' a.z]
  · unfold subD negD
    dsimp only
    rw [Dbl.sub_anti a.x, Dbl.sub_anti a.y, Dbl.sub_anti a.z]
  · unfold crossD negD
    dsimp only
    rw [Dbl.sub_anti (b.y.mul a.z), Dbl.sub_anti (b.z.mul a.x), Dbl.sub_anti (b.x.mul a.y), Dbl.neg_neg', Dbl.neg_neg', Dbl.neg_neg',
      Dbl.mul_comm' a.y b.z, Dbl.mul_comm' a.z b.y, Dbl.mul_comm' a.z b.x, Dbl.mul_comm' a.x b.z, Dbl.mul_comm' a.x b.y, Dbl.mul_comm' a.y b.x]

/-- C88: `a == b` for points and vectors holds exactly when the coordinates agree and none of them is NaN. -/
theorem C88_equal (a b : V3 Dbl) : eqD a b = true ↔ a = b ∧ a.x ≠ .nan ∧ a.y ≠ .nan ∧ a.z ≠ .nan := by
  have key : ∀ u v : Dbl, u.eq v = true ↔ u = v ∧ u ≠ .nan := by
    intro u v
    cases u <;> cases v <;> simp [Dbl.eq]
  obtain ⟨ax, ay, az⟩ := a
  obtain ⟨bx, by', bz⟩ := b
  simp only [eqD, Bool.and_eq_true, key, V3.mk.injEq]
  tauto

/-- A vector with a NaN in it differs from itself, one without equals itself. -/
example : eqD ⟨.fin 1, .nan, .fin 2⟩ ⟨.fin 1, .nan, .fin 2⟩ = false ∧ eqD ⟨.fin 1, .pinf, .fin 2⟩ ⟨.fin 1, .pinf, .fin 2⟩ = true := by
  decide +kernel

/-- C88: `a ^ a` is zero exactly when the three products of two coordinates are finite. -/
theorem C88_cross_self (a : V3 Dbl) : crossD a a = (⟨0, 0, 0⟩ : V3 ℚ).toDbl ↔ (∃ q, a.y.mul a.z = .fin q) ∧ (∃ q, a.z.mul a.x = .fin q) ∧ ∃ q, a.x.mul a.y = .fin q := by
  unfold crossD V3.toDbl
  rw [Dbl.mul_comm' a.z a.y, Dbl.mul_comm' a.x a.z, Dbl.mul_comm' a.y a.x]
  constructor
  · intro h
    injection h with h1 h2 h3
    exact ⟨(Dbl.sub_self' _).1 h1, (Dbl.sub_self' _).1 h2, (Dbl.sub_self' _).1 h3⟩
  · rintro ⟨h1, h2, h3⟩
    rw [(Dbl.sub_self' _).2 h1, (Dbl.sub_self' _).2 h2, (Dbl.sub_self' _).2 h3]

/-- C88, the part of C01 that holds: with integer coordinates up to 2^25 in any unit that is a power of two, all operations are exact: sums, differences, scalar and cross products are those of
C01, whatever the order of the sum. -/
theorem C88_exact_partial (o : SumOrder) (s : ℤ) (h1 : -537 ≤ s) (h2 : s ≤ 485) (a b : V3 ℚ) (ha : ScaledPoint s (2 ^ 25) a) (hb : ScaledPoint s (2 ^ 25) b) :
    addD a.toDbl b.toDbl = (V3.add a b).toDbl ∧ subD a.toDbl b.toDbl = (V3.sub a b).toDbl ∧ dotD o a.toDbl b.toDbl = .fin (V3.dot a b) ∧
    crossD a.toDbl b.toDbl = (V3.cross a b).toDbl := by
  obtain ⟨ax, ay, az⟩ := ha
  obtain ⟨bx, by', bz⟩ := hb
  have hadd : ∀ {x y : ℚ}, Scaled s (2 ^ 25) x → Scaled s (2 ^ 25) y → (Dbl.fin x).add (.fin y) = .fin (x + y) := fun hx hy =>
    (hx.add hy).exact (by norm_num) (by omega) (by omega)
  have hsub : ∀ {x y : ℚ}, Scaled s (2 ^ 25) x → Scaled s (2 ^ 25) y → (Dbl.fin x).sub (.fin y) = .fin (x - y) := fun hx hy => by
    rw [Dbl.sub_fin]; exact (hx.sub hy).exact (by norm_num) (by omega) (by omega)
  have hmul : ∀ {x y : ℚ}, Scaled s (2 ^ 25) x → Scaled s (2 ^ 25) y → (Dbl.fin x).mul (.fin y) = .fin (x * y) := fun hx hy =>
    (hx.mul hy).exact (by norm_num) (by omega) (by omega)
  have hsub2 : ∀ {x y : ℚ}, Scaled (s + s) (2 ^ 25 * 2 ^ 25) x → Scaled (s + s) (2 ^ 25 * 2 ^ 25) y → (Dbl.fin x).sub (.fin y) = .fin (x - y) := fun hx hy => by
    rw [Dbl.sub_fin]; exact (hx.sub hy).exact (by norm_num) (by omega) (by omega)
  have hadd2 : ∀ {N : ℤ} {x y : ℚ}, Scaled (s + s) (2 ^ 25 * 2 ^ 25) x → Scaled (s + s) (2 ^ 25 * 2 ^ 25) y → (Dbl.fin x).add (.fin y) = .fin (x + y) := fun hx hy =>
    (hx.add hy).exact (by norm_num) (by omega) (by omega)
  have hadd3 : ∀ {x y : ℚ}, Scaled (s + s) (2 ^ 25 * 2 ^ 25 + 2 ^ 25 * 2 ^ 25) x → Scaled (s + s) (2 ^ 25 * 2 ^ 25) y → (Dbl.fin x).add (.fin y) = .fin (x + y) := fun hx hy =>
    (hx.add hy).exact (by norm_num) (by omega) (by omega)
  have e : ∀ q : V3 ℚ, q.toDbl = ⟨.fin q.x, .fin q.y, .fin q.z⟩ := fun _ => rfl
  refine ⟨?_, ?_, ?_, ?_⟩
  · rw [e, e, e]; unfold addD V3.add; dsimp only
    rw [hadd ax bx, hadd ay by', hadd az bz]
  · rw [e, e, e]; unfold subD V3.sub; dsimp only
    rw [hsub ax bx, hsub ay by', hsub az bz]
  · rw [e, e]; unfold dotD; dsimp only
    rw [hmul ax bx, hmul ay by', hmul az bz]
    cases o with
    | xyz =>
      unfold SumOrder.sum; dsimp only
      rw [hadd2 (N := 0) (ax.mul bx) (ay.mul by'), hadd3 ((ax.mul bx).add (ay.mul by')) (az.mul bz)]
      rfl
    | zyx =>
      unfold SumOrder.sum; dsimp only
      rw [hadd2 (N := 0) (az.mul bz) (ay.mul by'), hadd3 ((az.mul bz).add (ay.mul by')) (ax.mul bx)]
      congr 1
      unfold V3.dot
      ring
    | xzy =>
      unfold SumOrder.sum; dsimp only
      rw [hadd2 (N := 0) (ax.mul bx) (az.mul bz), hadd3 ((ax.mul bx).add (az.mul bz)) (ay.mul by')]
      congr 1
      unfold V3.dot
      ring
  · rw [e, e, e]; unfold crossD V3.cross; dsimp only
    rw [hmul ay bz, hmul az by', hmul az bx, hmul ax bz, hmul ax by', hmul ay bx, hsub2 (ay.mul bz) (az.mul by'), hsub2 (az.mul bx) (ax.mul bz),
      hsub2 (ax.mul by') (ay.mul bx)]

/-- The hypotheses of `C88_exact_partial` hold for points with coordinates in centimetre-like units of 2^-7. -/
example : ScaledPoint (-7) (2 ^ 25) ⟨82837 / 64, -5, 128⟩ :=
  ⟨⟨165674, by norm_num, by norm_num⟩, ⟨-640, by norm_num, by norm_num⟩, ⟨16384, by norm_num, by norm_num⟩⟩

/-- C88: determinants of integer coordinates up to 2^16, in any unit that is a power of two, are exact: orientation tests are right. -/
theorem C88_det_exact_partial (s : ℤ) (h1 : -358 ≤ s) (h2 : s ≤ 323) (a b c : V3 ℚ) (ha : ScaledPoint s (2 ^ 16) a) (hb : ScaledPoint s (2 ^ 16) b)
    (hc : ScaledPoint s (2 ^ 16) c) : determinantD a.toDbl b.toDbl c.toDbl = .fin (V3.determinant a b c) := by
  obtain ⟨ax, ay, az⟩ := ha
  obtain ⟨bx, by', bz⟩ := hb
  obtain ⟨cx, cy, cz⟩ := hc
  have hmul : ∀ {x y z : ℚ}, Scaled s (2 ^ 16) x → Scaled s (2 ^ 16) y → Scaled s (2 ^ 16) z →
      ((Dbl.fin x).mul (.fin y)).mul (.fin z) = .fin (x * y * z) ∧ Scaled (s + s + s) (2 ^ 48) (x * y * z) := fun hx hy hz => by
    rw [Dbl.mul_fin, (hx.mul hy).exact (by norm_num) (by omega) (by omega), Dbl.mul_fin, ((hx.mul hy).mul hz).exact (by norm_num) (by omega) (by omega)]
    exact ⟨rfl, ((hx.mul hy).mul hz).mono (by norm_num)⟩
  have hadd : ∀ {N : ℤ} {x y : ℚ}, Scaled (s + s + s) N x → Scaled (s + s + s) (2 ^ 48) y → N + 2 ^ 48 ≤ 2 ^ 53 → (Dbl.fin x).add (.fin y) = .fin (x + y) ∧
      Scaled (s + s + s) (N + 2 ^ 48) (x + y) := fun hx hy hN => ⟨(hx.add hy).exact hN (by omega) (by omega), hx.add hy⟩
  have hsub : ∀ {N : ℤ} {x y : ℚ}, Scaled (s + s + s) N x → Scaled (s + s + s) (2 ^ 48) y → N + 2 ^ 48 ≤ 2 ^ 53 → (Dbl.fin x).sub (.fin y) = .fin (x - y) ∧
      Scaled (s + s + s) (N + 2 ^ 48) (x - y) := fun hx hy hN => ⟨by rw [Dbl.sub_fin]; exact (hx.sub hy).exact hN (by omega) (by omega), hx.sub hy⟩
  have m1 := hmul ax by' cz
  have m2 := hmul ax bz cy
  have m3 := hmul ay bx cz
  have m4 := hmul ay bz cx
  have m5 := hmul az bx cy
  have m6 := hmul az by' cx
  have s1 := hsub m1.2 m2.2 (by norm_num)
  have s2 := hsub s1.2 m3.2 (by norm_num)
  have s3 := hadd s2.2 m4.2 (by norm_num)
  have s4 := hadd s3.2 m5.2 (by norm_num)
  have s5 := hsub s4.2 m6.2 (by norm_num)
  unfold determinantD V3.toDbl
  dsimp only
  rw [m1.1, m2.1, m3.1, m4.1, m5.1, m6.1, s1.1, s2.1, s3.1, s4.1, s5.1]
  rfl

/-- The hypotheses of `C88_det_exact_partial` hold for coordinates that are multiples of 1/4 up to 16384. -/
example : ScaledPoint (-2) (2 ^ 16) ⟨1 / 4, -16000, 7⟩ ∧ (-358 : ℤ) ≤ -2 ∧ (-2 : ℤ) ≤ 323 :=
  ⟨⟨⟨1, by norm_num, by norm_num⟩, ⟨-64000, by norm_num, by norm_num⟩, ⟨28, by norm_num, by norm_num⟩⟩, by norm_num, by norm_num⟩

/-- C88: a point is moved to the other when they are within a factor of two, coordinate by coordinate. -/
theorem C88_translation_partial (p q : V3 ℚ)
    (hx : IsDouble p.x ∧ IsDouble q.x ∧ 0 ≤ p.x ∧ p.x / 2 ≤ q.x ∧ q.x ≤ 2 * p.x)
    (hy : IsDouble p.y ∧ IsDouble q.y ∧ 0 ≤ p.y ∧ p.y / 2 ≤ q.y ∧ q.y ≤ 2 * p.y)
    (hz : IsDouble p.z ∧ IsDouble q.z ∧ 0 ≤ p.z ∧ p.z / 2 ≤ q.z ∧ q.z ≤ 2 * p.z) :
    subD q.toDbl p.toDbl = (V3.sub q p).toDbl ∧ addD p.toDbl (subD q.toDbl p.toDbl) = q.toDbl := by
  have big : ∀ {x : ℚ}, IsDouble x → |x| < 2 ^ 1024 := by
    rintro x ⟨m, e, hm, _, he, rfl⟩
    have hs : (2 : ℚ) ^ e ≤ 2 ^ (971 : ℤ) := zpow_le_zpow_right₀ (by norm_num) he
    have hm' : |(m : ℚ)| < 2 ^ 53 := by exact_mod_cast hm
    rw [abs_mul, abs_of_pos (two_zpow_pos (K := ℚ) e)]
    calc |(m : ℚ)| * 2 ^ e < 2 ^ 53 * 2 ^ e := mul_lt_mul_of_pos_right hm' (two_zpow_pos e)
      _ ≤ 2 ^ 53 * 2 ^ (971 : ℤ) := mul_le_mul_of_nonneg_left hs (by positivity)
      _ = 2 ^ 1024 := by rw [← zpow_natCast, ← zpow_add₀ (by norm_num), ← zpow_natCast]; norm_num
  have key : ∀ {x y : ℚ}, IsDouble x ∧ IsDouble y ∧ 0 ≤ x ∧ x / 2 ≤ y ∧ y ≤ 2 * x → (Dbl.fin y).sub (.fin x) = .fin (y - x) ∧
      (Dbl.fin x).add (.fin (y - x)) = .fin y := by
    rintro x y ⟨h1, h2, h3, h4, h5⟩
    have hb := sterbenz (double_bits h2) (double_bits h1) h3 h4 h5
    have hlt : |y - x| < 2 ^ 1024 := by
      refine lt_of_le_of_lt ?_ (big h1)
      rw [abs_of_nonneg h3, abs_le]
      constructor <;> linarith
    refine ⟨by rw [Dbl.sub_fin]; exact Dbl.ofExact_bits hb hlt, ?_⟩
    rw [Dbl.add_fin, show x + (y - x) = y by ring]
    exact Dbl.ofExact_bits (double_bits h2) (big h2)
  unfold addD subD V3.toDbl V3.sub
  dsimp only
  rw [(key hx).1, (key hy).1, (key hz).1, (key hx).2, (key hy).2, (key hz).2]
  exact ⟨rfl, rfl⟩

/-- The hypotheses of `C88_translation_partial` hold for the nearest doubles to 0.3 and 0.2, which are on no common coarse grid. -/
example : IsDouble (tenths 3) ∧ IsDouble (tenths 2) ∧ 0 ≤ tenths 3 ∧ tenths 3 / 2 ≤ tenths 2 ∧ tenths 2 ≤ 2 * tenths 3 :=
  ⟨double_3, double_tenth 2 7205759403792794 (-55) (by decide +kernel) (by norm_num) (by norm_num) (by norm_num), by decide +kernel, by decide +kernel, by decide +kernel⟩

/-- Sums of doubles have a relative error of 2^-53. -/
theorem fl_add_rel {x y : ℚ} (hx : Bits x) (hy : Bits y) : |fl (x + y) - (x + y)| ≤ 2 ^ (-53 : ℤ) * |x + y| := by
  have := fl_sub_rel hx hy.neg
  rwa [sub_neg_eq_add] at this

/-- The error of a sum of three rounded products. -/
theorem sum_error {p1 p2 p3 : ℚ} : |fl (fl (fl p1 + fl p2) + fl p3) - (p1 + p2 + p3)| ≤ 2 ^ (-51 : ℤ) * (|p1| + |p2| + |p3|) + 2 ^ (-1073 : ℤ) := by
  have m : ∀ p : ℚ, |fl p - p| ≤ 2 ^ (-53 : ℤ) * |p| + 2 ^ (-1075 : ℤ) := fun p => by
    have := fl_abs_rel p
    rwa [Rat.cast_id] at this
  have a1 := fl_add_rel (fl_bits p1) (fl_bits p2)
  have a2 := fl_add_rel (fl_bits (fl p1 + fl p2)) (fl_bits p3)
  have b1 := m p1
  have b2 := m p2
  have b3 := m p3
  have he : (2 : ℚ) ^ (-1073 : ℤ) = 4 * 2 ^ (-1075 : ℤ) := by
    rw [show (-1073 : ℤ) = 2 + -1075 by norm_num, zpow_add₀ (by norm_num)]; norm_num
  have he0 : (0 : ℚ) < 2 ^ (-1075 : ℤ) := two_zpow_pos _
  rw [he]
  have c1 : |fl p1| ≤ |fl p1 - p1| + |p1| := by have := abs_add_le (fl p1 - p1) p1; rwa [sub_add_cancel] at this
  have c2 : |fl p2| ≤ |fl p2 - p2| + |p2| := by have := abs_add_le (fl p2 - p2) p2; rwa [sub_add_cancel] at this
  have c3 : |fl p3| ≤ |fl p3 - p3| + |p3| := by have := abs_add_le (fl p3 - p3) p3; rwa [sub_add_cancel] at this
  have c4 : |fl p1 + fl p2| ≤ |fl p1| + |fl p2| := abs_add_le _ _
  have c5 : |fl (fl p1 + fl p2)| ≤ |fl (fl p1 + fl p2) - (fl p1 + fl p2)| + |fl p1 + fl p2| := by
    have := abs_add_le (fl (fl p1 + fl p2) - (fl p1 + fl p2)) (fl p1 + fl p2); rwa [sub_add_cancel] at this
  have c6 : |fl (fl p1 + fl p2) + fl p3| ≤ |fl (fl p1 + fl p2)| + |fl p3| := abs_add_le _ _
  have n1 := abs_nonneg p1
  have n2 := abs_nonneg p2
  have n3 := abs_nonneg p3
  have tri : |fl (fl (fl p1 + fl p2) + fl p3) - (p1 + p2 + p3)| ≤ |fl (fl (fl p1 + fl p2) + fl p3) - (fl (fl p1 + fl p2) + fl p3)| +
      |fl (fl p1 + fl p2) - (fl p1 + fl p2)| + |fl p1 - p1| + |fl p2 - p2| + |fl p3 - p3| := by
    have e : fl (fl (fl p1 + fl p2) + fl p3) - (p1 + p2 + p3) = (fl (fl (fl p1 + fl p2) + fl p3) - (fl (fl p1 + fl p2) + fl p3)) +
      (fl (fl p1 + fl p2) - (fl p1 + fl p2)) + (fl p1 - p1) + (fl p2 - p2) + (fl p3 - p3) := by ring
    rw [e]
    refine (abs_add_le _ _).trans (add_le_add_left ?_ _)
    refine (abs_add_le _ _).trans (add_le_add_left ?_ _)
    refine (abs_add_le _ _).trans (add_le_add_left ?_ _)
    exact abs_add_le _ _
  generalize |fl (fl (fl p1 + fl p2) + fl p3) - (p1 + p2 + p3)| = T at *
  generalize |fl (fl (fl p1 + fl p2) + fl p3) - (fl (fl p1 + fl p2) + fl p3)| = T1 at *
  generalize |fl (fl p1 + fl p2) - (fl p1 + fl p2)| = T2 at *
  generalize |fl (fl p1 + fl p2) + fl p3| = T3 at *
  generalize |fl (fl p1 + fl p2)| = T4 at *
  generalize |fl p1 + fl p2| = T5 at *
  generalize |fl p1 - p1| = d1 at *
  generalize |fl p2 - p2| = d2 at *
  generalize |fl p3 - p3| = d3 at *
  generalize |fl p1| = f1 at *
  generalize |fl p2| = f2 at *
  generalize |fl p3| = f3 at *
  generalize (2 : ℚ) ^ (-1075 : ℤ) = e at *
  norm_num at a1 a2 b1 b2 b3 ⊢
  linarith

/-- C88: the error of a scalar product that does not overflow: at most 2^-51 times the sum of the absolute values of the products, plus 2^-1073 for products that are too small,
whatever the order of the sum. -/
theorem C88_dot_error (o : SumOrder) (a b : V3 ℚ) (d : ℚ) (h : dotD o a.toDbl b.toDbl = .fin d) :
    |d - V3.dot a b| ≤ 2 ^ (-51 : ℤ) * (|a.x * b.x| + |a.y * b.y| + |a.z * b.z|) + 2 ^ (-1073 : ℤ) := by
  have key : ∀ {p1 p2 p3 : Dbl} {q1 q2 q3 : ℚ}, (∀ x, p1 = .fin x → x = fl q1) → (∀ x, p2 = .fin x → x = fl q2) → (∀ x, p3 = .fin x → x = fl q3) →
      (p1.add p2).add p3 = .fin d → |d - (q1 + q2 + q3)| ≤ 2 ^ (-51 : ℤ) * (|q1| + |q2| + |q3|) + 2 ^ (-1073 : ℤ) := by
    intro p1 p2 p3 q1 q2 q3 h1 h2 h3 hd
    obtain ⟨x, z, e1, e2, rfl⟩ := Dbl.add_eq_fin hd
    obtain ⟨x1, x2, e3, e4, rfl⟩ := Dbl.add_eq_fin e1
    rw [h1 x1 e3, h2 x2 e4, h3 z e2]
    exact sum_error
  have hm : ∀ (x y z : ℚ), (Dbl.fin x).mul (.fin y) = .fin z → z = fl (x * y) := fun x y z hz => (Dbl.ofExact_fin hz).1
  unfold V3.toDbl dotD at h
  dsimp only at h
  unfold V3.dot
  cases o with
  | xyz => exact key (fun z => hm a.x b.x z) (fun z => hm a.y b.y z) (fun z => hm a.z b.z z) h
  | zyx =>
    have := key (fun z => hm a.z b.z z) (fun z => hm a.y b.y z) (fun z => hm a.x b.x z) h
    rw [show a.x * b.x + a.y * b.y + a.z * b.z = a.z * b.z + a.y * b.y + a.x * b.x by ring,
      show |a.x * b.x| + |a.y * b.y| + |a.z * b.z| = |a.z * b.z| + |a.y * b.y| + |a.x * b.x| by ring]
    exact this
  | xzy =>
    have := key (fun z => hm a.x b.x z) (fun z => hm a.z b.z z) (fun z => hm a.y b.y z) h
    rw [show a.x * b.x + a.y * b.y + a.z * b.z = a.x * b.x + a.z * b.z + a.y * b.y by ring,
      show |a.x * b.x| + |a.y * b.y| + |a.z * b.z| = |a.x * b.x| + |a.z * b.z| + |a.y * b.y| by ring]
    exact this

/-- A scalar product with rounding: the hypothesis of `C88_dot_error` holds and the result is not the exact one. -/
example : ∃ d, dotD .xyz (⟨tenths 1, tenths 2, tenths 3⟩ : V3 ℚ).toDbl (⟨tenths 3, tenths 3, tenths 1⟩ : V3 ℚ).toDbl = .fin d ∧
    d ≠ V3.dot ⟨tenths 1, tenths 2, tenths 3⟩ ⟨tenths 3, tenths 3, tenths 1⟩ :=
  ⟨fl (fl (fl (tenths 1 * tenths 3) + fl (tenths 2 * tenths 3)) + fl (tenths 3 * tenths 1)), by decide +kernel, by decide +kernel⟩

/-- C88: a vector times a number: with integers up to 2^25 in units that are powers of two the three coordinates are exact products. -/
theorem C88_scale_exact_partial (s t : ℤ) (h1 : -1074 ≤ t + s) (h2 : t + s ≤ 970) (c : ℚ) (a : V3 ℚ) (hc : Scaled t (2 ^ 25) c) (ha : ScaledPoint s (2 ^ 25) a) :
    smulD (.fin c) a.toDbl = (V3.smul c a).toDbl := by
  obtain ⟨ax, ay, az⟩ := ha
  have hmul : ∀ {x : ℚ}, Scaled s (2 ^ 25) x → (Dbl.fin c).mul (.fin x) = .fin (c * x) := fun hx =>
    (hc.mul hx).exact (by norm_num) (by omega) (by omega)
  have e : ∀ q : V3 ℚ, q.toDbl = ⟨.fin q.x, .fin q.y, .fin q.z⟩ := fun _ => rfl
  rw [e, e]
  unfold smulD V3.smul
  dsimp only
  rw [hmul ax, hmul ay, hmul az]

/-- C88: for any doubles each coordinate of the product that is finite is within one rounding of the exact product; so is the quotient. -/
theorem C88_scale_error (c : ℚ) (a r : V3 ℚ) :
    (smulD (.fin c) a.toDbl = r.toDbl → |r.x - c * a.x| ≤ 2 ^ (-53 : ℤ) * |c * a.x| + 2 ^ (-1075 : ℤ) ∧ |r.y - c * a.y| ≤ 2 ^ (-53 : ℤ) * |c * a.y| + 2 ^ (-1075 : ℤ) ∧
      |r.z - c * a.z| ≤ 2 ^ (-53 : ℤ) * |c * a.z| + 2 ^ (-1075 : ℤ)) ∧
    (c ≠ 0 → divsD a.toDbl (.fin c) = r.toDbl → |r.x - a.x / c| ≤ 2 ^ (-53 : ℤ) * |a.x / c| + 2 ^ (-1075 : ℤ) ∧ |r.y - a.y / c| ≤ 2 ^ (-53 : ℤ) * |a.y / c| + 2 ^ (-1075 : ℤ) ∧
      |r.z - a.z / c| ≤ 2 ^ (-53 : ℤ) * |a.z / c| + 2 ^ (-1075 : ℤ)) := by
  have R : ∀ {x q : ℚ}, Dbl.ofExact x = .fin q → |q - x| ≤ 2 ^ (-53 : ℤ) * |x| + 2 ^ (-1075 : ℤ) := by
    intro x q h
    have e : q = fl x := (Dbl.ofExact_fin h).1
    have := fl_abs_rel x
    rwa [Rat.cast_id, ← e] at this
  have e : ∀ q : V3 ℚ, q.toDbl = ⟨.fin q.x, .fin q.y, .fin q.z⟩ := fun _ => rfl
  constructor
  · intro h
    rw [e, e] at h
    unfold smulD at h
    rw [V3.mk.injEq] at h
    exact ⟨R h.1, R h.2.1, R h.2.2⟩
  · intro h0 h
    rw [e, e] at h
    unfold divsD at h
    rw [V3.mk.injEq] at h
    have D : ∀ x : ℚ, (Dbl.fin x).div (.fin c) = Dbl.ofExact (x / c) := fun x => by
      unfold Dbl.div
      simp [h0]
    rw [D, D, D] at h
    exact ⟨R h.1, R h.2.1, R h.2.2⟩

/-- A product and a quotient with a rounding. -/
example : smulD (.fin (tenths 3)) (⟨tenths 3, 2, -1⟩ : V3 ℚ).toDbl = (⟨fl (tenths 3 * tenths 3), fl (tenths 3 * 2), fl (tenths 3 * -1)⟩ : V3 ℚ).toDbl ∧
    divsD (⟨1, 2, -1⟩ : V3 ℚ).toDbl (.fin 10) = (⟨tenths 1, tenths 2, -tenths 1⟩ : V3 ℚ).toDbl := by
  constructor <;> decide +kernel

end City.Props
