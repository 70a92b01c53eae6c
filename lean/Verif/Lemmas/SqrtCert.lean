import Verif.Lemmas.VecDbl
/-! Square roots of doubles by bounds: how `Dbl.sqrt`, which is defined by the real square root, is computed in examples. -/
namespace City
section
variable {K : Type} [Field K] [LinearOrder K] [IsStrictOrderedRing K] [FloorRing K]

theorem rne_ratCast (q : ℚ) : rne (q : K) = rne q := by
  unfold rne
  have h : ((q : K) - ((⌊q⌋ : ℤ) : K)) = ((q - ⌊q⌋ : ℚ) : K) := by push_cast; ring
  have e : (1 / 2 : K) = ((1 / 2 : ℚ) : K) := by push_cast; ring
  rw [Rat.floor_cast, h, e]
  simp only [Rat.cast_lt]

theorem intLog_ratCast (q : ℚ) : Int.log 2 (q : K) = Int.log 2 q := by
  unfold Int.log
  have e : ((q : K))⁻¹ = ((q⁻¹ : ℚ) : K) := by push_cast; rfl
  have o : (1 : K) = ((1 : ℚ) : K) := by simp
  rw [e, o]
  simp only [Rat.cast_le, ← Int.floor_toNat, ← Int.ceil_toNat, Rat.floor_cast, Rat.ceil_cast]

theorem lastBit_ratCast (q : ℚ) : lastBit (q : K) = lastBit q := by
  unfold lastBit
  rw [← Rat.cast_abs, intLog_ratCast]

theorem fl_ratCast (q : ℚ) : fl (q : K) = fl q := by
  unfold fl
  rw [lastBit_ratCast]
  have e : ((q : K) / 2 ^ lastBit q) = ((q / 2 ^ lastBit q : ℚ) : K) := by push_cast; rfl
  rw [e, rne_ratCast]

end

/-- The square root of a number is rounded to the double that two bounds of it have in common. -/
theorem sqrt_cert {q a b : ℚ} (ha : 0 ≤ a) (hb : 0 ≤ b) (h1 : a * a ≤ q) (h2 : q ≤ b * b) (h : fl a = fl b) :
    Dbl.sqrt (.fin q) = Dbl.ofExact a := by
  have hq : 0 ≤ q := le_trans (mul_nonneg ha ha) h1
  have e1 : (a : ℝ) ≤ Real.sqrt (q : ℝ) := Real.le_sqrt_of_sq_le (by rw [pow_two]; exact_mod_cast h1)
  have e2 : Real.sqrt (q : ℝ) ≤ (b : ℝ) := Real.sqrt_le_iff.mpr ⟨by exact_mod_cast hb, by rw [pow_two]; exact_mod_cast h2⟩
  have f1 := fl_mono e1
  have f2 := fl_mono e2
  rw [fl_ratCast] at f1 f2
  have f : fl (Real.sqrt (q : ℝ)) = fl a := le_antisymm (h ▸ f2) f1
  show (if q < 0 then Dbl.nan else Dbl.ofExact (Real.sqrt (q : ℝ))) = _
  rw [if_neg (not_lt.mpr hq)]
  unfold Dbl.ofExact
  rw [f]
end City
