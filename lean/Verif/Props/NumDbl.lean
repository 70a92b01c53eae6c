import Verif.Props.NumMore
import Verif.Props.Obj
import Verif.Lemmas.Float
import Mathlib.RingTheory.Coprime.Lemmas
/-!
C22 and C24 for the doubles, down to the smallest: what the second write and read changes.
-/
set_option exponentiation.threshold 2000
namespace City.Props
open City Spec

theorem rne_unique {x : ℚ} {n : ℤ} (h : |x - n| < 1 / 2) : rne x = n := by
  have h1 := rne_near x
  have h2 : |(rne x : ℚ) - n| < 1 := by
    calc |(rne x : ℚ) - n| = |((rne x : ℚ) - x) + (x - n)| := by ring_nf
      _ ≤ |(rne x : ℚ) - x| + |x - n| := abs_add_le _ _
      _ < 1 := by linarith
  have h3 : |rne x - n| < 1 := by exact_mod_cast h2
  have := Int.abs_lt_one_iff.1 h3
  omega

theorem fl_rounding : IsRounding (fl : ℚ → ℚ) := by
  refine ⟨fun n hn => ?_, fun v hv => ?_⟩
  · have h : Bits ((n : ℤ) * 2 ^ (0 : ℤ) : ℚ) := bits_of_le (by rw [abs_of_nonneg (by positivity)]; exact_mod_cast hn) (by norm_num)
    have := fl_of_bits' h
    simpa using this
  · have := fl_rel (K := ℚ) hv
    rwa [Rat.cast_id] at this

theorem lastBit_small {x : ℚ} (h0 : x ≠ 0) (h : |x| < 2 ^ (-1021 : ℤ)) : lastBit x = -1074 := by
  unfold lastBit
  refine max_eq_right ?_
  have h1 := log_le_abs h0
  have h2 : (2 : ℚ) ^ (Int.log 2 |x|) < 2 ^ (-1021 : ℤ) := lt_of_le_of_lt h1 h
  have h3 := (zpow_lt_zpow_iff_right₀ (by norm_num : (1 : ℚ) < 2)).1 h2
  omega

/-- No decimal of six digits is half way between two of the smallest doubles. -/
theorem not_half {d : ℚ} (hf : FewDigits d) (hd : |d| < 2 ^ (-1022 : ℤ)) (n : ℤ) : |d / 2 ^ (-1074 : ℤ) - n| ≠ 1 / 2 := by
  intro h
  obtain ⟨m, j, hm, hj⟩ := hf
  obtain ⟨a, ha⟩ : ∃ a : ℤ, d * 2 ^ 1075 = 2 * a + 1 := by
    have e : d / 2 ^ (-1074 : ℤ) = d * 2 ^ 1074 := by
      rw [show (-1074 : ℤ) = -((1074 : ℕ) : ℤ) by rfl, zpow_neg, zpow_natCast, div_inv_eq_mul]
    rw [e] at h
    rcases (abs_eq (by norm_num)).1 h with h | h
    · exact ⟨n, by rw [pow_succ 2 1074]; linarith⟩
    · exact ⟨n - 1, by rw [pow_succ 2 1074]; push_cast; linarith⟩
  have hm0 : m ≠ 0 := by
    rintro rfl
    have : d = 0 := by simpa using hj
    rw [this, zero_mul] at ha
    have : (0 : ℤ) = 2 * a + 1 := by exact_mod_cast ha
    omega
  have hsmall : (2 : ℚ) ^ (-1022 : ℤ) ≤ 1 / 10 ^ 9 := by
    rw [show (-1022 : ℤ) = -((1022 : ℕ) : ℤ) by rfl, zpow_neg, zpow_natCast]
    norm_num
  have hm1 : (1 : ℚ) ≤ m := by exact_mod_cast Nat.one_le_iff_ne_zero.2 hm0
  rcases le_or_gt 0 j with hj0 | hj0
  · have : (1 : ℚ) ≤ 10 ^ j := one_le_zpow₀ (by norm_num) hj0
    have h1 : (1 : ℚ) ≤ |d| := by rw [hj]; nlinarith
    exact absurd (lt_of_le_of_lt h1 (lt_of_lt_of_le hd hsmall)) (by norm_num)
  · obtain ⟨k, rfl⟩ : ∃ k : ℕ, j = -(k : ℤ) := ⟨j.toNat.max (-j).toNat, by
      have : ((-j).toNat : ℤ) = -j := Int.toNat_of_nonneg (by omega)
      have h2 : j.toNat = 0 := Int.toNat_of_nonpos hj0.le
      rw [h2]
      have : Nat.max 0 (-j).toNat = (-j).toNat := Nat.max_eq_right (Nat.zero_le _)
      rw [this]; omega⟩
    rw [zpow_neg, zpow_natCast] at hj
    have e1 : (m : ℚ) * 2 ^ 1075 = |2 * (a : ℚ) + 1| * 10 ^ k := by
      rw [← ha, abs_mul, hj, abs_of_pos (by positivity : (0 : ℚ) < 2 ^ 1075)]
      field_simp
    have e2 : (m : ℤ) * 2 ^ 1075 = |2 * a + 1| * 10 ^ k := by exact_mod_cast e1
    have hdvd : (5 : ℤ) ^ k ∣ m * 2 ^ 1075 := by
      rw [e2, show (10 : ℤ) = 2 * 5 by norm_num, mul_pow]
      exact ⟨|2 * a + 1| * 2 ^ k, by ring⟩
    have hco : IsCoprime ((5 : ℤ) ^ k) (2 ^ 1075) := IsCoprime.pow (⟨1, -2, by norm_num⟩ : IsCoprime (5 : ℤ) 2)
    have h5 : (5 : ℤ) ^ k ∣ m := hco.dvd_of_dvd_mul_right hdvd
    have h6 : 5 ^ k ∣ m := by exact_mod_cast h5
    have h7 := Nat.le_of_dvd (Nat.pos_of_ne_zero hm0) h6
    have hk : k < 9 := by
      by_contra hk
      have : 5 ^ 9 ≤ 5 ^ k := Nat.pow_le_pow_right (by norm_num) (not_lt.1 hk)
      omega
    have h8 : (10 : ℚ) ^ k ≤ 10 ^ 9 := pow_le_pow_right₀ (by norm_num) hk.le
    have h9 : (1 : ℚ) / 10 ^ 9 ≤ |d| := by
      rw [hj, ← one_div]
      have : (1 : ℚ) / 10 ^ 9 ≤ 1 / 10 ^ k := one_div_le_one_div_of_le (by positivity) h8
      nlinarith [this, hm1, (by positivity : (0 : ℚ) ≤ 1 / 10 ^ k)]
    exact absurd (lt_of_lt_of_le hd hsmall) (not_lt.2 h9)

theorem round6_best {x d' : ℚ} (h : FewDigits d') : |round6 x - x| ≤ |d' - x| := by
  rcases lt_trichotomy x 0 with h0 | rfl | h0
  · have e : round6 x = -six (-x) := by rw [← round6_pos (by linarith), round6_neg]; ring
    have k := (six_nearest (q := -x) (by linarith) (fewDigits_neg h)).1
    have f : ∀ y : ℚ, |-y - x| = |y - -x| := by
      intro y; rw [← abs_neg]; congr 1; ring
    rw [e, f, show |d' - x| = |-d' - -x| by rw [← f, neg_neg]]
    exact k
  · rw [round6_zero]; simp
  · rw [round6_pos h0]
    exact (six_nearest h0 h).1

/-- Reading and printing once more: the same double. -/
theorem settle {d : ℚ} (hf : FewDigits d) (hr : round6 d = d) : fl (round6 (fl d)) = fl d := by
  by_cases hd0 : d = 0
  · rw [hd0, fl_zero, round6_zero, fl_zero]
  rcases le_or_gt ((2 : ℚ) ^ (-1022 : ℤ)) |d| with h | h
  · have he := fl_rounding.error d h
    have : round6 (fl d) = round6 d := round6_near (by
      rw [hr]
      refine le_trans he (mul_le_mul_of_nonneg_right ?_ (abs_nonneg _))
      rw [show (-53 : ℤ) = -((53 : ℕ) : ℤ) by rfl, zpow_neg, zpow_natCast]
      norm_num)
    rw [this, hr]
  · set e : ℚ := 2 ^ (-1074 : ℤ) with he
    have hpos : 0 < e := two_zpow_pos _
    have h22 : (2 : ℚ) ^ (-1022 : ℤ) = 2 ^ 52 * e := by
      rw [he, show (-1022 : ℤ) = 52 + -1074 by norm_num, zpow_add₀ (by norm_num)]; norm_cast
    have h21 : (2 : ℚ) ^ (-1021 : ℤ) = 2 ^ 53 * e := by
      rw [he, show (-1021 : ℤ) = 53 + -1074 by norm_num, zpow_add₀ (by norm_num)]; norm_cast
    have hb : lastBit d = -1074 := lastBit_small hd0 (lt_trans h (by rw [h22, h21]; nlinarith))
    have hy : fl d = (rne (d / e) : ℤ) * e := by unfold fl; rw [hb]
    have hn := rne_near (d / e)
    have hne := not_half hf h (rne (d / e))
    rw [← he] at hne
    rw [abs_sub_comm] at hn
    have hlt : |d / e - rne (d / e)| < 1 / 2 := lt_of_le_of_ne hn hne
    generalize rne (d / e) = n at hy hlt
    have hlt' : |d - n * e| < e / 2 := by
      have : d - n * e = (d / e - n) * e := by field_simp
      rw [this, abs_mul, abs_of_pos hpos]
      nlinarith
    have hbest : |round6 (fl d) - fl d| ≤ |d - fl d| := round6_best hf
    rw [hy] at hbest ⊢
    have h3 : |round6 (n * e) - n * e| < e / 2 := lt_of_le_of_lt hbest hlt'
    have h4 : |round6 (n * e)| < 2 ^ (-1021 : ℤ) := by
      have a1 : |round6 (n * e)| ≤ |round6 (n * e) - n * e| + |n * e - d| + |d| := by
        calc |round6 (n * e)| = |(round6 (n * e) - n * e) + (n * e - d) + d| := by ring_nf
          _ ≤ |(round6 (n * e) - n * e) + (n * e - d)| + |d| := abs_add_le _ _
          _ ≤ _ := by linarith [abs_add_le (round6 (n * e) - n * e) (n * e - d)]
      rw [abs_sub_comm _ d] at a1
      rw [h21]
      rw [h22] at h
      clear_value e
      clear h22 h21 hb hn hne he
      have : (2 : ℚ) ^ 53 * e = 2 ^ 52 * e + 2 ^ 52 * e := by ring
      have : e ≤ 2 ^ 52 * e := by linarith
      linarith
    by_cases h5 : round6 (n * e) = 0
    · have h6 : (n : ℚ) * e = 0 := by
        by_contra h6
        have k1 := round6_error (n * e)
        rw [h5, zero_sub, abs_neg] at k1
        have k2 := abs_pos.2 h6
        generalize |(n : ℚ) * e| = w at k1 k2
        clear * - k1 k2
        norm_num at k1
        linarith
      rw [h6, round6_zero, fl_zero]
    unfold fl
    rw [lastBit_small h5 h4, ← he]
    have : rne (round6 (n * e) / e) = n := rne_unique (by
      have : round6 (n * e) / e - n = (round6 (n * e) - n * e) / e := by field_simp
      rw [this, abs_div, abs_of_pos hpos, div_lt_iff₀ hpos]
      linarith)
    rw [this]

theorem scan_round6 (rnd : ℚ → ℚ) {x y : ℚ} (hx : |x| ≤ dblMax) (hy : scanDecs rnd (dblText x) = [y]) : y = rnd (round6 x) := by
  have a := scanDecs_dblText rnd hx stop_nil
  rw [List.append_nil, scanDecs_nil] at a
  rw [a] at hy
  exact (List.singleton_inj.1 hy).symm

theorem round6_fixed (x : ℚ) : round6 (round6 x) = round6 x :=
  round6_near (by rw [sub_self, abs_zero]; positivity)

theorem fl_round6_le {x : ℚ} (hx : |x| ≤ dblMax) : |fl (round6 x)| ≤ dblMax := by
  by_cases hn : NormalCoord x
  · exact (reread fl_rounding hx hn).2
  · unfold NormalCoord at hn
    rw [not_or, not_le] at hn
    have h1 := round6_error x
    have h2 : |round6 x| ≤ 1 := by
      have a : |round6 x| ≤ |round6 x - x| + |x| := by
        calc |round6 x| = |(round6 x - x) + x| := by ring_nf
          _ ≤ _ := abs_add_le _ _
      have b : (10 : ℚ) ^ (-307 : ℤ) ≤ 1 / 2 := by
        rw [show (-307 : ℤ) = -((307 : ℕ) : ℤ) by rfl, zpow_neg, zpow_natCast]
        norm_num
      have c := lt_of_lt_of_le hn.2 b
      generalize |x| = w at *
      clear * - a c h1
      norm_num at h1
      linarith
    have one : Bits (1 : ℚ) := by
      have := bits_of_le (m := 1) (e := 0) (by norm_num) (by norm_num)
      simpa using this
    have h3 : |fl (round6 x)| ≤ 1 := by
      rw [abs_le] at h2 ⊢
      exact ⟨le_fl one.neg (by rw [Rat.cast_id]; exact h2.1), fl_le one (by rw [Rat.cast_id]; exact h2.2)⟩
    exact le_trans h3 (by unfold dblMax; norm_num)

/-- C22, for the conversion of the machine and every finite coordinate, however small: what the first write and read gave, the second one gives again. -/
theorem C22_second_trip (x y : ℚ) (hx : |x| ≤ dblMax) (hy : scanDecs fl (dblText x) = [y]) : scanDecs fl (dblText y) = [y] := by
  obtain rfl := scan_round6 fl hx hy
  have a := scanDecs_dblText fl (fl_round6_le hx) stop_nil
  rw [List.append_nil, scanDecs_nil] at a
  rw [a, settle (fewDigits_round6 x) (round6_fixed x)]

theorem readPt_settled {p : V3 ℚ} : Off.readPt fl (Off.readPt fl p) = Off.readPt fl p := by
  unfold Off.readPt
  simp only
  rw [settle (fewDigits_round6 p.x) (round6_fixed p.x), settle (fewDigits_round6 p.y) (round6_fixed p.y), settle (fewDigits_round6 p.z) (round6_fixed p.z)]

/-- C24, for the conversion of the machine and all finite coordinates, however small: from the second trip on the meshes do not change any more. (The text
may: see the example.) -/
theorem C24_second_trip_doubles (t : Text) (ms : List Mesh) (h : Obj.read fl t = .ok ms) (hne : ms ≠ []) (hs : (ms.flatMap (·.points)).length ≤ 2 ^ 53)
    (hn : ∀ m ∈ ms, ∀ p ∈ m.points, FinitePoint p) :
    ∃ t1 r1 t2, Obj.write ms = .ok t1 ∧ Obj.read fl t1 = .ok r1 ∧
      List.Forall₂ (fun m r => r.name = m.name ∧ r.faces = m.faces ∧ List.Forall₂ (ReadBack fl) m.points r.points) ms r1 ∧
      Obj.write r1 = .ok t2 ∧ Obj.read fl t2 = .ok r1 := by
  obtain ⟨hready, hsort, hcan⟩ := ready_of_read h hn hs
  obtain ⟨t1, h1, h2⟩ := Obj.read_write fl_rounding.small_nat hne hready
  rw [map_canon_sorted hsort fun m hm => (hcan m hm).1] at h2
  set r1 := ms.map fun m => Mesh.make m.name (m.points.map (Off.readPt fl)) m.faces with hr1
  have hne1 : r1 ≠ [] := by simpa [hr1] using hne
  have hs1 : (r1.flatMap (·.points)).length ≤ 2 ^ 53 := by
    refine le_trans (le_of_eq ?_) hs
    rw [hr1, List.flatMap_map, List.length_flatMap, List.length_flatMap]
    simp [Mesh.make]
  have hn1 : ∀ m ∈ r1, ∀ p ∈ m.points, FinitePoint p := by
    intro m hm p hp
    obtain ⟨m', hm', rfl⟩ := List.mem_map.1 hm
    simp only [Mesh.make] at hp
    obtain ⟨p', hp', rfl⟩ := List.mem_map.1 hp
    obtain ⟨a, b, c⟩ := hn m' hm' p' hp'
    exact ⟨fl_round6_le a, fl_round6_le b, fl_round6_le c⟩
  obtain ⟨hready1, hsort1, hcan1⟩ := ready_of_read h2 hn1 hs1
  obtain ⟨t2, h3, h4⟩ := Obj.read_write fl_rounding.small_nat hne1 hready1
  rw [map_canon_sorted hsort1 fun m hm => (hcan1 m hm).1] at h4
  refine ⟨t1, r1, t2, h1, h2, ?_, h3, ?_⟩
  · rw [hr1, List.forall₂_map_right_iff]
    apply List.forall₂_same.2
    intro m hm
    refine ⟨rfl, rfl, ?_⟩
    simp only [Mesh.make]
    rw [List.forall₂_map_right_iff]
    exact List.forall₂_same.2 fun p hp => readBack_readPt fl (hn m hm p hp)
  · rw [h4]
    congr 1
    rw [hr1, List.map_map]
    refine List.map_congr_left fun m hm => ?_
    simp only [Function.comp, Mesh.make, List.map_map]
    congr 1
    · refine List.map_congr_left fun p _ => readPt_settled
    · congr 1
      exact List.map_congr_left fun p _ => readPt_settled

/-- C22: the text may change once more among the smallest doubles: 202403 times the smallest double is printed 1e-318 and read as 202402 times it, which is
printed 9.99999e-319. -/
theorem C22_tiny_text : dblText (202403 / 2 ^ 1074) = "1e-318".toList ∧ fl ((1 : ℚ) / 10 ^ 318) = 202402 / 2 ^ 1074 ∧ dblText (202402 / 2 ^ 1074) = "9.99999e-319".toList := by
  refine ⟨by decide +kernel, ?_, by decide +kernel⟩
  have hb : lastBit ((1 : ℚ) / 10 ^ 318) = -1074 := by
    refine lastBit_small (by positivity) ?_
    rw [abs_of_pos (by positivity), show (-1021 : ℤ) = -((1021 : ℕ) : ℤ) by rfl, zpow_neg, zpow_natCast]
    norm_num
  unfold fl
  rw [hb, show (-1074 : ℤ) = -((1074 : ℕ) : ℤ) by rfl, zpow_neg, zpow_natCast]
  have : rne ((1 : ℚ) / 10 ^ 318 / (2 ^ 1074)⁻¹) = 202402 := rne_unique (by
    rw [abs_lt]; constructor <;> norm_num)
  rw [this]
  norm_num

end City.Props
