import Verif.Model.VecDbl
import Verif.Lemmas.Float
import Mathlib.Tactic.Linarith
import Mathlib.Tactic.Ring
/-!
Laws of the operations on doubles.
-/
set_option linter.unusedSectionVars false
set_option exponentiation.threshold 2000
namespace City
namespace Dbl

section
variable {K : Type} [Field K] [LinearOrder K] [IsStrictOrderedRing K] [FloorRing K]

theorem ofExact_neg (x : K) : ofExact (-x) = (ofExact x).neg := by
  have hb : (0 : ℚ) < 2 ^ 1024 := by positivity
  unfold ofExact
  rw [fl_neg]
  generalize (2 : ℚ) ^ 1024 = B at *
  generalize fl x = f
  by_cases h1 : B ≤ -f
  · rw [if_pos h1, if_neg (by intro h; linarith), if_pos (by linarith)]; rfl
  · by_cases h2 : -f ≤ -B
    · rw [if_neg h1, if_pos h2, if_pos (by linarith)]; rfl
    · rw [if_neg h1, if_neg h2, if_neg (by intro h; apply h2; linarith), if_neg (by intro h; apply h1; linarith)]; rfl

/-- What a rounded result is when it is finite. -/
theorem ofExact_fin {x : K} {q : ℚ} (h : ofExact x = fin q) : q = fl x ∧ |q| < 2 ^ 1024 := by
  unfold ofExact at h
  generalize (2 : ℚ) ^ 1024 = B at *
  split_ifs at h with h1 h2
  cases h
  exact ⟨rfl, abs_lt.2 ⟨by linarith [not_le.1 h2], not_le.1 h1⟩⟩

theorem ofExact_eq {x : K} (h : |fl x| < 2 ^ 1024) : ofExact x = fin (fl x) := by
  unfold ofExact
  generalize (2 : ℚ) ^ 1024 = B at *
  have := abs_lt.1 h
  rw [if_neg (by intro h; linarith), if_neg (by intro h; linarith)]
end

theorem ofExact_bits {q : ℚ} (h : Bits q) (hq : |q| < 2 ^ 1024) : ofExact q = fin q := by
  have e := fl_of_bits' h
  have := ofExact_eq (x := q) (by rw [e]; exact hq)
  rw [e] at this
  exact this

theorem ofExact_zero : ofExact (0 : ℚ) = fin 0 := ofExact_bits ⟨0, 0, by norm_num, by norm_num, by norm_num⟩ (by norm_num)

theorem add_comm' (a b : Dbl) : a.add b = b.add a := by
  cases a <;> cases b <;> try rfl
  case fin.fin x y =>
    show ofExact (x + y) = ofExact (y + x)
    rw [add_comm]

theorem mul_comm' (a b : Dbl) : a.mul b = b.mul a := by
  cases a <;> cases b <;> try rfl
  case fin.fin x y =>
    show ofExact (x * y) = ofExact (y * x)
    rw [mul_comm]

theorem neg_neg' (a : Dbl) : a.neg.neg = a := by
  cases a <;> simp [neg]

theorem neg_add' (a b : Dbl) : (a.add b).neg = a.neg.add b.neg := by
  cases a <;> cases b <;> try rfl
  case fin.fin x y =>
    show (ofExact (x + y)).neg = ofExact (-x + -y)
    rw [← ofExact_neg, neg_add]

theorem neg_infOf (q : ℚ) : (infOf q).neg = infOf (-q) := by
  unfold infOf
  by_cases h1 : 0 < q
  · rw [if_pos h1, if_neg (by linarith), if_pos (by linarith)]; rfl
  · by_cases h2 : q < 0
    · rw [if_neg h1, if_pos h2, if_pos (by linarith)]; rfl
    · rw [if_neg h1, if_neg h2, if_neg (by linarith), if_neg (by linarith)]; rfl

theorem neg_mul' (a b : Dbl) : a.neg.mul b = (a.mul b).neg := by
  cases a <;> cases b <;> try rfl
  case fin.fin x y =>
    show ofExact (-x * y) = (ofExact (x * y)).neg
    rw [← ofExact_neg, neg_mul]
  case pinf.fin y => exact (neg_infOf y).symm
  case ninf.fin y =>
    show infOf y = (infOf (-y)).neg
    rw [neg_infOf, neg_neg]
  case fin.pinf x => exact (neg_infOf x).symm
  case fin.ninf x => exact (neg_infOf (-x)).symm

theorem sub_anti (a b : Dbl) : a.sub b = (b.sub a).neg := by
  unfold sub
  rw [neg_add', neg_neg', add_comm']

theorem sub_self' (a : Dbl) : a.sub a = fin 0 ↔ ∃ q, a = fin q := by
  constructor
  · intro h
    cases a with
    | fin q => exact ⟨q, rfl⟩
    | nan => cases h
    | ninf => cases h
    | pinf => cases h
  · rintro ⟨q, rfl⟩
    show ofExact (q + -q) = fin 0
    rw [add_neg_cancel, ofExact_zero]

theorem sub_fin (a b : ℚ) : (fin a).sub (fin b) = ofExact (a - b) := by
  show ofExact (a + -b) = _
  rw [← sub_eq_add_neg]

theorem add_fin (a b : ℚ) : (fin a).add (fin b) = ofExact (a + b) := rfl

theorem mul_fin (a b : ℚ) : (fin a).mul (fin b) = ofExact (a * b) := rfl

/-- A finite sum has finite terms. -/
theorem add_eq_fin {a b : Dbl} {q : ℚ} (h : a.add b = fin q) : ∃ x y, a = fin x ∧ b = fin y ∧ q = fl (x + y) := by
  cases a <;> cases b <;> first | (cases h; done) | skip
  case fin.fin x y => exact ⟨x, y, rfl, rfl, (ofExact_fin h).1⟩

theorem mul_eq_fin {a b : Dbl} {q : ℚ} (h : a.mul b = fin q) : ∃ x y, a = fin x ∧ b = fin y ∧ q = fl (x * y) := by
  have inf : ∀ x : ℚ, infOf x ≠ fin q := fun x hx => by unfold infOf at hx; split_ifs at hx
  cases a <;> cases b <;> first | (cases h; done) | (exact absurd h (inf _)) | skip
  case fin.fin x y => exact ⟨x, y, rfl, rfl, (ofExact_fin h).1⟩

end Dbl

/-! ### Integers scaled by a power of two -/

/-- An integer of absolute value at most `N` times `2^s`. -/
def Scaled (s : ℤ) (N : ℤ) (q : ℚ) : Prop := ∃ n : ℤ, |n| ≤ N ∧ q = n * 2 ^ s

theorem Scaled.add {s M N : ℤ} {a b : ℚ} (ha : Scaled s M a) (hb : Scaled s N b) : Scaled s (M + N) (a + b) := by
  obtain ⟨m, hm, rfl⟩ := ha
  obtain ⟨n, hn, rfl⟩ := hb
  exact ⟨m + n, (abs_add_le m n).trans (by omega), by push_cast; ring⟩

theorem Scaled.neg {s M : ℤ} {a : ℚ} (ha : Scaled s M a) : Scaled s M (-a) := by
  obtain ⟨m, hm, rfl⟩ := ha
  exact ⟨-m, by rwa [abs_neg], by push_cast; ring⟩

theorem Scaled.sub {s M N : ℤ} {a b : ℚ} (ha : Scaled s M a) (hb : Scaled s N b) : Scaled s (M + N) (a - b) := by
  rw [sub_eq_add_neg]; exact ha.add hb.neg

theorem Scaled.mul {s t M N : ℤ} {a b : ℚ} (ha : Scaled s M a) (hb : Scaled t N b) : Scaled (s + t) (M * N) (a * b) := by
  obtain ⟨m, hm, rfl⟩ := ha
  obtain ⟨n, hn, rfl⟩ := hb
  refine ⟨m * n, ?_, ?_⟩
  · rw [abs_mul]; exact mul_le_mul hm hn (abs_nonneg n) ((abs_nonneg m).trans hm)
  · rw [zpow_add₀ (by norm_num)]; push_cast; ring

theorem Scaled.mono {s M N : ℤ} {a : ℚ} (ha : Scaled s M a) (h : M ≤ N) : Scaled s N a := by
  obtain ⟨m, hm, rfl⟩ := ha
  exact ⟨m, hm.trans h, rfl⟩

/-- Such a number with 53 digits, in the range of the exponents, is a double: nothing is rounded. -/
theorem Scaled.exact {s N : ℤ} {q : ℚ} (h : Scaled s N q) (hN : N ≤ 2 ^ 53) (h1 : -1074 ≤ s) (h2 : s ≤ 970) : Dbl.ofExact q = .fin q := by
  obtain ⟨n, hn, rfl⟩ := h
  refine Dbl.ofExact_bits (bits_of_le (hn.trans hN) h1) ?_
  have hs : (2 : ℚ) ^ s ≤ 2 ^ (970 : ℤ) := zpow_le_zpow_right₀ (by norm_num) h2
  have hn' : |(n : ℚ)| ≤ 2 ^ 53 := by exact_mod_cast hn.trans hN
  rw [abs_mul, abs_of_pos (two_zpow_pos (K := ℚ) s)]
  calc |(n : ℚ)| * 2 ^ s ≤ 2 ^ 53 * 2 ^ (970 : ℤ) := mul_le_mul hn' hs (two_zpow_pos s).le (by positivity)
    _ < 2 ^ 1024 := by
      rw [← zpow_natCast, ← zpow_add₀ (by norm_num), ← zpow_natCast]
      exact zpow_lt_zpow_right₀ (by norm_num) (by norm_num)

end City
