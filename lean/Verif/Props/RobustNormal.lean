import Verif.Props.GridTriangles
/-!
C89: normals of all triangles that are not thin.
-/
set_option linter.unusedSectionVars false
set_option exponentiation.threshold 2000
namespace City.Spec
open City V3

/-- A whole multiple of a power of two. -/
def Multiple (e : ℤ) (x : ℚ) : Prop := ∃ n : ℤ, x = n * 2 ^ e

/-- The three coordinates are whole multiples of a power of two. -/
def MultiplePoint (e : ℤ) (p : V3 ℚ) : Prop := Multiple e p.x ∧ Multiple e p.y ∧ Multiple e p.z

/-- The coordinates of the vector from one point to another are at most `W`. -/
def SideWithin (W : ℚ) (p q : V3 ℚ) : Prop := |q.x - p.x| ≤ W ∧ |q.y - p.y| ≤ W ∧ |q.z - p.z| ≤ W

/-- The three coordinates are finite and within `ε` of those of a real vector. -/
def WithinPoint (ε : ℝ) (d : V3 Dbl) (x : V3 ℝ) : Prop :=
  ∃ q : V3 ℚ, d = q.toDbl ∧ |(q.x : ℝ) - x.x| ≤ ε ∧ |(q.y : ℝ) - x.y| ≤ ε ∧ |(q.z : ℝ) - x.z| ≤ ε

end City.Spec

namespace City.Props
open City City.Spec V3

theorem _root_.City.Spec.Multiple.sub {e : ℤ} {x y : ℚ} (hx : Multiple e x) (hy : Multiple e y) : Multiple e (x - y) := by
  obtain ⟨n, rfl⟩ := hx
  obtain ⟨m, rfl⟩ := hy
  exact ⟨n - m, by push_cast; ring⟩

theorem _root_.City.Spec.Multiple.mul {e f : ℤ} {x y : ℚ} (hx : Multiple e x) (hy : Multiple f y) : Multiple (e + f) (x * y) := by
  obtain ⟨n, rfl⟩ := hx
  obtain ⟨m, rfl⟩ := hy
  exact ⟨n * m, by rw [zpow_add₀ (by norm_num)]; push_cast; ring⟩

theorem _root_.City.Spec.Multiple.fl {e : ℤ} {x : ℚ} (h : Multiple e x) : Multiple e (fl x) := by
  obtain ⟨n, rfl⟩ := h
  by_cases hl : lastBit ((n : ℚ) * 2 ^ e) ≤ e
  · exact ⟨n, fl_of_multiple hl⟩
  · push Not at hl
    refine ⟨rne ((n : ℚ) * 2 ^ e / 2 ^ lastBit ((n : ℚ) * 2 ^ e)) * 2 ^ (lastBit ((n : ℚ) * 2 ^ e) - e).toNat, ?_⟩
    unfold City.fl
    generalize lastBit ((n : ℚ) * 2 ^ e) = l at *
    push_cast
    rw [mul_assoc, ← zpow_natCast, ← zpow_add₀ (by norm_num), Int.toNat_of_nonneg (by omega), sub_add_cancel]

/-- A multiple that is not too large is zero or moderate. -/
theorem _root_.City.Spec.Multiple.moderate {e : ℤ} {x : ℚ} (h : Multiple e x) (he : -500 ≤ e) (hx : |x| ≤ 2 ^ (500 : ℤ)) : Moderate x := by
  obtain ⟨n, rfl⟩ := h
  by_cases hn : n = 0
  · left; rw [hn]; simp
  · right
    refine ⟨?_, hx⟩
    have hn1 : (1 : ℚ) ≤ |(n : ℚ)| := by exact_mod_cast Int.one_le_abs hn
    rw [abs_mul, abs_of_pos (two_zpow_pos (K := ℚ) _)]
    exact (zpow_le_zpow_right₀ (by norm_num) he).trans (le_mul_of_one_le_left (two_zpow_pos _).le hn1)

/-- A finite double, a multiple of a power of two, within `E` of a number. -/
def OffM (e : ℤ) (E : ℚ) (d : Dbl) (x : ℚ) : Prop := ∃ q, d = .fin q ∧ Multiple e q ∧ |q - x| ≤ E

theorem OffM.mono {e : ℤ} {E F x : ℚ} {d : Dbl} (h : OffM e E d x) (hF : E ≤ F) : OffM e F d x := by
  obtain ⟨q, a, b, hq⟩ := h
  exact ⟨q, a, b, hq.trans hF⟩

theorem offM_round {e : ℤ} {E A x q : ℚ} (hm : Multiple e q) (h : |q - x| ≤ E) (hx : |x| ≤ A) (hA : A + E ≤ 2 ^ (1000 : ℤ)) :
    OffM e (E + 2 ^ (-53 : ℤ) * (A + E) + 2 ^ (-1075 : ℤ)) (Dbl.ofExact q) x := by
  have hq : |q| ≤ A + E := by
    have := abs_add_le (q - x) x
    rw [sub_add_cancel] at this
    linarith
  refine ⟨fl q, Dbl.ofExact_eq (fl_finite hq hA), hm.fl, ?_⟩
  have h1 := fl_abs_rel' q
  have h2 := abs_sub_le (fl q) q x
  have h3 : (2 : ℚ) ^ (-53 : ℤ) * |q| ≤ 2 ^ (-53 : ℤ) * (A + E) := mul_le_mul_of_nonneg_left hq (two_zpow_pos _).le
  linarith

theorem OffM.sub {e : ℤ} {E F A x y : ℚ} {d d' : Dbl} (h : OffM e E d x) (g : OffM e F d' y) (hA : |x - y| ≤ A) (hb : A + (E + F) ≤ 2 ^ (1000 : ℤ)) :
    OffM e ((E + F) + 2 ^ (-53 : ℤ) * (A + (E + F)) + 2 ^ (-1075 : ℤ)) (d.sub d') (x - y) := by
  obtain ⟨q, rfl, m, hq⟩ := h
  obtain ⟨r, rfl, m', hr⟩ := g
  rw [Dbl.sub_fin]
  refine offM_round (m.sub m') ?_ hA hb
  have := abs_sub (q - x) (r - y)
  rw [show q - x - (r - y) = q - r - (x - y) by ring] at this
  linarith

theorem OffM.mul {e f : ℤ} {E W x y : ℚ} {d d' : Dbl} (h : OffM e E d x) (g : OffM f E d' y) (hx : |x| ≤ W) (hy : |y| ≤ W)
    (hb : W * W + (2 * W * E + E * E) ≤ 2 ^ (1000 : ℤ)) :
    OffM (e + f) ((2 * W * E + E * E) + 2 ^ (-53 : ℤ) * (W * W + (2 * W * E + E * E)) + 2 ^ (-1075 : ℤ)) (d.mul d') (x * y) := by
  obtain ⟨q, rfl, m, hq⟩ := h
  obtain ⟨r, rfl, m', hr⟩ := g
  rw [Dbl.mul_fin]
  have hW : 0 ≤ W := (abs_nonneg _).trans hx
  have hE : 0 ≤ E := (abs_nonneg _).trans hq
  refine offM_round (m.mul m') ?_ (by rw [abs_mul]; exact mul_le_mul hx hy (abs_nonneg _) hW) hb
  have e1 : q * r - x * y = (q - x) * (r - y) + x * (r - y) + (q - x) * y := by ring
  rw [e1]
  refine (abs_add_le _ _).trans ?_
  have t1 := abs_add_le ((q - x) * (r - y)) (x * (r - y))
  rw [abs_mul, abs_mul] at t1
  rw [abs_mul]
  have p1 := mul_le_mul hq hr (abs_nonneg _) hE
  have p2 := mul_le_mul hx hr (abs_nonneg _) hW
  have p3 := mul_le_mul hq hy (abs_nonneg _) hE
  linarith

/-- The computed cross product of two sides. -/
theorem cross_off {W : ℚ} (h1 : 2 ^ (-150 : ℤ) ≤ W) (h2 : W ≤ 2 ^ (200 : ℤ)) {p q r : V3 ℚ} (hp : MultiplePoint (-200) p) (hq : MultiplePoint (-200) q)
    (hr : MultiplePoint (-200) r) (hpq : SideWithin W p q) (hqr : SideWithin W q r) :
    ∃ c : V3 ℚ, crossD (vecD p.toDbl q.toDbl) (vecD q.toDbl r.toDbl) = c.toDbl ∧ (Moderate c.x ∧ Moderate c.y ∧ Moderate c.z) ∧
      |c.x - (V3.cross (V3.sub q p) (V3.sub r q)).x| ≤ 2 ^ (-49 : ℤ) * W ^ 2 ∧ |c.y - (V3.cross (V3.sub q p) (V3.sub r q)).y| ≤ 2 ^ (-49 : ℤ) * W ^ 2 ∧
      |c.z - (V3.cross (V3.sub q p) (V3.sub r q)).z| ≤ 2 ^ (-49 : ℤ) * W ^ 2 := by
  have hW0 : 0 < W := lt_of_lt_of_le (two_zpow_pos _) h1
  have hτ1 : (2 : ℚ) ^ (-1075 : ℤ) ≤ 2 ^ (-60 : ℤ) * W := by
    refine le_trans ?_ (mul_le_mul_of_nonneg_left h1 (two_zpow_pos _).le)
    rw [← zpow_add₀ (by norm_num)]
    exact zpow_le_zpow_right₀ (by norm_num) (by norm_num)
  have hWW : (2 : ℚ) ^ (-300 : ℤ) ≤ W * W := by
    have := mul_le_mul h1 h1 (two_zpow_pos _).le hW0.le
    rwa [← zpow_add₀ (by norm_num)] at this
  have hWW2 : W * W ≤ 2 ^ (400 : ℤ) := by
    have := mul_le_mul h2 h2 hW0.le (two_zpow_pos _).le
    rwa [← zpow_add₀ (by norm_num)] at this
  have hτ2 : (2 : ℚ) ^ (-1075 : ℤ) ≤ 2 ^ (-60 : ℤ) * (W * W) := by
    refine le_trans ?_ (mul_le_mul_of_nonneg_left hWW (two_zpow_pos _).le)
    rw [← zpow_add₀ (by norm_num)]
    exact zpow_le_zpow_right₀ (by norm_num) (by norm_num)
  have hbig : 8 * (2 : ℚ) ^ (400 : ℤ) ≤ 2 ^ (500 : ℤ) := by
    have : (8 : ℚ) = 2 ^ (3 : ℤ) := by norm_num
    rw [this, ← zpow_add₀ (by norm_num)]
    exact zpow_le_zpow_right₀ (by norm_num) (by norm_num)
  have hbig3 : (2 : ℚ) ^ (500 : ℤ) ≤ 2 ^ (1000 : ℤ) := zpow_le_zpow_right₀ (by norm_num) (by norm_num)
  have hbig4 : 2 * (2 : ℚ) ^ (200 : ℤ) ≤ 2 ^ (1000 : ℤ) := by
    have : (2 : ℚ) = 2 ^ (1 : ℤ) := by norm_num
    nth_rewrite 1 [this]
    rw [← zpow_add₀ (by norm_num)]
    exact zpow_le_zpow_right₀ (by norm_num) (by norm_num)
  have side : ∀ {x y : ℚ}, Multiple (-200) x → Multiple (-200) y → |x - y| ≤ W → OffM (-200) (2 ^ (-52 : ℤ) * W) ((Dbl.fin x).sub (.fin y)) (x - y) := by
    intro x y hx hy h
    have := OffM.sub (E := 0) (F := 0) (d := .fin x) (d' := .fin y) ⟨x, rfl, hx, by simp⟩ ⟨y, rfl, hy, by simp⟩ h (by linarith)
    refine this.mono ?_
    norm_num at hτ1 ⊢
    linarith
  have prod : ∀ {x y : ℚ} {d d' : Dbl}, OffM (-200) (2 ^ (-52 : ℤ) * W) d x → OffM (-200) (2 ^ (-52 : ℤ) * W) d' y → |x| ≤ W → |y| ≤ W →
      OffM (-400) (3 * 2 ^ (-52 : ℤ) * (W * W)) (d.mul d') (x * y) := by
    intro x y d d' h h' hx hy
    have e : 2 * W * (2 ^ (-52 : ℤ) * W) + 2 ^ (-52 : ℤ) * W * (2 ^ (-52 : ℤ) * W) = (2 * 2 ^ (-52 : ℤ) + 2 ^ (-104 : ℤ)) * (W * W) := by
      have : (2 : ℚ) ^ (-104 : ℤ) = 2 ^ (-52 : ℤ) * 2 ^ (-52 : ℤ) := by rw [← zpow_add₀ (by norm_num)]; norm_num
      rw [this]; ring
    have := OffM.mul h h' hx hy (by
      rw [e]
      have : (2 * 2 ^ (-52 : ℤ) + 2 ^ (-104 : ℤ) : ℚ) ≤ 1 := by norm_num
      nlinarith)
    rw [e] at this
    refine this.mono ?_
    generalize W * W = V at *
    generalize (2 : ℚ) ^ (-1075 : ℤ) = τ at *
    norm_num at hτ2 ⊢
    have : 0 < V := lt_of_lt_of_le (two_zpow_pos _) hWW
    linarith
  have comp : ∀ {x y x' y' : ℚ} {a b a' b' : Dbl}, OffM (-400) (3 * 2 ^ (-52 : ℤ) * (W * W)) (a.mul b) (x * y) → OffM (-400) (3 * 2 ^ (-52 : ℤ) * (W * W)) (a'.mul b') (x' * y') →
      |x| ≤ W → |y| ≤ W → |x'| ≤ W → |y'| ≤ W → ∃ c : ℚ, (a.mul b).sub (a'.mul b') = .fin c ∧ Moderate c ∧ |c - (x * y - x' * y')| ≤ 2 ^ (-49 : ℤ) * W ^ 2 := by
    intro x y x' y' a b a' b' h h' hx hy hx' hy'
    have b1 : |x * y| ≤ W * W := by rw [abs_mul]; exact mul_le_mul hx hy (abs_nonneg _) hW0.le
    have b2 : |x' * y'| ≤ W * W := by rw [abs_mul]; exact mul_le_mul hx' hy' (abs_nonneg _) hW0.le
    have b3 : |x * y - x' * y'| ≤ 2 * (W * W) := by
      have := abs_sub (x * y) (x' * y')
      linarith
    have hV : 0 < W * W := mul_pos hW0 hW0
    obtain ⟨c, e, m, hc⟩ := OffM.sub h h' b3 (by
      have : (3 * 2 ^ (-52 : ℤ) : ℚ) ≤ 1 := by norm_num
      nlinarith)
    have hc' : |c - (x * y - x' * y')| ≤ 2 ^ (-49 : ℤ) * W ^ 2 := by
      refine hc.trans ?_
      rw [sq]
      generalize W * W = V at *
      generalize (2 : ℚ) ^ (-1075 : ℤ) = τ at *
      norm_num at hτ2 ⊢
      linarith
    refine ⟨c, e, m.moderate (by norm_num) ?_, hc'⟩
    have t := abs_add_le (c - (x * y - x' * y')) (x * y - x' * y')
    rw [sub_add_cancel] at t
    have : (2 : ℚ) ^ (-49 : ℤ) * W ^ 2 ≤ W * W := by
      rw [sq]
      exact mul_le_of_le_one_left hV.le (by norm_num)
    linarith
  obtain ⟨px, py, pz⟩ := hp
  obtain ⟨qx, qy, qz⟩ := hq
  obtain ⟨rx, ry, rz⟩ := hr
  obtain ⟨ax, ay, az⟩ := hpq
  obtain ⟨bx, by', bz⟩ := hqr
  have sax := side qx px ax
  have say := side qy py ay
  have saz := side qz pz az
  have sbx := side rx qx bx
  have sby := side ry qy by'
  have sbz := side rz qz bz
  obtain ⟨cx, ex, mx, hx⟩ := comp (prod say sbz ay bz) (prod saz sby az by') ay bz az by'
  obtain ⟨cy, ey, my, hy⟩ := comp (prod saz sbx az bx) (prod sax sbz ax bz) az bx ax bz
  obtain ⟨cz, ez, mz, hz⟩ := comp (prod sax sby ax by') (prod say sbx ay bx) ax by' ay bx
  refine ⟨⟨cx, cy, cz⟩, ?_, ⟨mx, my, mz⟩, hx, hy, hz⟩
  show (⟨_, _, _⟩ : V3 Dbl) = ⟨_, _, _⟩
  exact V3.ext ex ey ez

theorem norm_sq (c : V3 ℝ) : V3.norm c * V3.norm c = c.x * c.x + c.y * c.y + c.z * c.z := by
  unfold V3.norm
  exact Real.mul_self_sqrt (by unfold V3.dot; nlinarith [mul_self_nonneg c.x, mul_self_nonneg c.y, mul_self_nonneg c.z])

theorem norm_nonneg' (c : V3 ℝ) : 0 ≤ V3.norm c := Real.sqrt_nonneg _

theorem abs_le_norm (c : V3 ℝ) : |c.x| ≤ V3.norm c ∧ |c.y| ≤ V3.norm c ∧ |c.z| ≤ V3.norm c := by
  have h := norm_sq c
  have h0 := norm_nonneg' c
  have nx := mul_self_nonneg c.x
  have ny := mul_self_nonneg c.y
  have nz := mul_self_nonneg c.z
  exact ⟨abs_le_of_sq_le_sq (by nlinarith) h0, abs_le_of_sq_le_sq (by nlinarith) h0, abs_le_of_sq_le_sq (by nlinarith) h0⟩

theorem sum_abs_le (c : V3 ℝ) : |c.x| + |c.y| + |c.z| ≤ 7 / 4 * V3.norm c := by
  have h := norm_sq c
  have h0 := norm_nonneg' c
  refine le_of_sq_le_sq ?_ (by positivity)
  have ex := abs_mul_abs_self c.x
  have ey := abs_mul_abs_self c.y
  have ez := abs_mul_abs_self c.z
  nlinarith [mul_self_nonneg (|c.x| - |c.y|), mul_self_nonneg (|c.y| - |c.z|), mul_self_nonneg (|c.x| - |c.z|)]

/-- The length of a vector that is changed a little. -/
theorem norm_change (c d : V3 ℝ) (δ : ℝ) (hx : |d.x - c.x| ≤ δ) (hy : |d.y - c.y| ≤ δ) (hz : |d.z - c.z| ≤ δ) : |V3.norm d - V3.norm c| ≤ 2 * δ := by
  have hδ : 0 ≤ δ := (abs_nonneg _).trans hx
  have h1 := norm_sq c
  have h2 := norm_sq d
  have p1 := norm_nonneg' c
  have p2 := norm_nonneg' d
  have s1 := sum_abs_le c
  have s2 := sum_abs_le d
  by_cases hz0 : V3.norm d + V3.norm c = 0
  · have e1 : V3.norm d = 0 := by linarith
    have e2 : V3.norm c = 0 := by linarith
    rw [e1, e2, sub_zero, abs_zero]
    linarith
  · have hpos : 0 < V3.norm d + V3.norm c := lt_of_le_of_ne (by linarith) (Ne.symm hz0)
    refine le_of_mul_le_mul_right ?_ hpos
    have e : |V3.norm d - V3.norm c| * (V3.norm d + V3.norm c) = |(d.x - c.x) * (d.x + c.x) + (d.y - c.y) * (d.y + c.y) + (d.z - c.z) * (d.z + c.z)| := by
      have e0 : |V3.norm d - V3.norm c| * (V3.norm d + V3.norm c) = |(V3.norm d - V3.norm c) * (V3.norm d + V3.norm c)| := by rw [abs_mul, abs_of_pos hpos]
      rw [e0]
      congr 1
      linear_combination h2 - h1
    rw [e]
    have term : ∀ {a b : ℝ}, |b - a| ≤ δ → |(b - a) * (b + a)| ≤ δ * (|b| + |a|) := by
      intro a b h
      rw [abs_mul]
      exact mul_le_mul h (abs_add_le b a) (abs_nonneg _) hδ
    have t1 := term hx
    have t2 := term hy
    have t3 := term hz
    have u1 := abs_add_le ((d.x - c.x) * (d.x + c.x) + (d.y - c.y) * (d.y + c.y)) ((d.z - c.z) * (d.z + c.z))
    have u2 := abs_add_le ((d.x - c.x) * (d.x + c.x)) ((d.y - c.y) * (d.y + c.y))
    have u3 : δ * ((|d.x| + |d.y| + |d.z|) + (|c.x| + |c.y| + |c.z|)) ≤ δ * (7 / 4 * (V3.norm d + V3.norm c)) := mul_le_mul_of_nonneg_left (by linarith) hδ
    have u4 : 0 ≤ δ * (V3.norm d + V3.norm c) := mul_nonneg hδ hpos.le
    nlinarith

/-- The direction of a vector that is changed a little. -/
theorem unit_change (c d : V3 ℝ) (δ : ℝ) (hx : |d.x - c.x| ≤ δ) (hy : |d.y - c.y| ≤ δ) (hz : |d.z - c.z| ≤ δ) (hc : 0 < V3.norm c) (hd : 0 < V3.norm d) :
    |d.x / V3.norm d - c.x / V3.norm c| ≤ 3 * δ / V3.norm c ∧ |d.y / V3.norm d - c.y / V3.norm c| ≤ 3 * δ / V3.norm c ∧
      |d.z / V3.norm d - c.z / V3.norm c| ≤ 3 * δ / V3.norm c := by
  have hn := norm_change c d δ hx hy hz
  obtain ⟨ax, ay, az⟩ := abs_le_norm d
  have one : ∀ {a b : ℝ}, |b - a| ≤ δ → |b| ≤ V3.norm d → |b / V3.norm d - a / V3.norm c| ≤ 3 * δ / V3.norm c := by
    intro a b h hb
    have e : b / V3.norm d - a / V3.norm c = ((b - a) + (b / V3.norm d) * (V3.norm c - V3.norm d)) / V3.norm c := by
      field_simp
      ring
    rw [e, abs_div, abs_of_pos hc]
    refine div_le_div_of_nonneg_right ?_ hc.le
    refine (abs_add_le _ _).trans ?_
    rw [abs_mul, abs_sub_comm (V3.norm c)]
    have h1 : |b / V3.norm d| ≤ 1 := by
      rw [abs_div, abs_of_pos hd, div_le_one hd]
      exact hb
    have h2 := mul_le_mul h1 hn (abs_nonneg _) zero_le_one
    linarith
  exact ⟨one hx ax, one hy ay, one hz az⟩

theorem area_le {W : ℚ} {p q r : V3 ℚ} (hpq : SideWithin W p q) (hqr : SideWithin W q r) : area2 p q r ≤ 4 * (W : ℝ) ^ 2 := by
  have hW : 0 ≤ W := (abs_nonneg _).trans hpq.1
  unfold area2
  rw [cross_real]
  have hc : ∀ {x y x' y' : ℚ}, |x| ≤ W → |y| ≤ W → |x'| ≤ W → |y'| ≤ W → |((x * y - x' * y' : ℚ) : ℝ)| ≤ 2 * (W : ℝ) ^ 2 := by
    intro x y x' y' hx hy hx' hy'
    have b1 : |x * y| ≤ W * W := by rw [abs_mul]; exact mul_le_mul hx hy (abs_nonneg _) hW
    have b2 : |x' * y'| ≤ W * W := by rw [abs_mul]; exact mul_le_mul hx' hy' (abs_nonneg _) hW
    have b3 : |x * y - x' * y'| ≤ 2 * W ^ 2 := by
      have := abs_sub (x * y) (x' * y')
      rw [sq]
      linarith
    exact_mod_cast b3
  have k1 := hc hpq.2.1 hqr.2.2 hpq.2.2 hqr.2.1
  have k2 := hc hpq.2.2 hqr.1 hpq.1 hqr.2.2
  have k3 := hc hpq.1 hqr.2.1 hpq.2.1 hqr.1
  have h := norm_sq (realPoint (V3.cross (V3.sub q p) (V3.sub r q)))
  have h0 := norm_nonneg' (realPoint (V3.cross (V3.sub q p) (V3.sub r q)))
  refine le_of_sq_le_sq ?_ (by positivity)
  have sqle : ∀ {a b : ℝ}, |a| ≤ b → a * a ≤ b * b := fun {a b} hab => by
    rw [← abs_mul_abs_self a]
    exact mul_le_mul hab hab (abs_nonneg _) ((abs_nonneg _).trans hab)
  have s1 : (realPoint (V3.cross (V3.sub q p) (V3.sub r q))).x * (realPoint (V3.cross (V3.sub q p) (V3.sub r q))).x ≤ _ := sqle k1
  have s2 : (realPoint (V3.cross (V3.sub q p) (V3.sub r q))).y * (realPoint (V3.cross (V3.sub q p) (V3.sub r q))).y ≤ _ := sqle k2
  have s3 : (realPoint (V3.cross (V3.sub q p) (V3.sub r q))).z * (realPoint (V3.cross (V3.sub q p) (V3.sub r q))).z ≤ _ := sqle k3
  rw [sq, h]
  nlinarith [sq_nonneg ((W : ℝ) ^ 2)]

/-- C89, for all doubles between 2^-147 and 2^200 (or zero): the computed normal of a triangle of width `W` is the unit normal up to 2^-46 times the ratio of the square of the width to twice the
area, whatever the order of the sum. -/
theorem C89_robust_partial (o : SumOrder) (W : ℚ) (h1 : 2 ^ (-150 : ℤ) ≤ W) (h2 : W ≤ 2 ^ (200 : ℤ)) (p q r : V3 ℚ) (hp : MultiplePoint (-200) p)
    (hq : MultiplePoint (-200) q) (hr : MultiplePoint (-200) r) (hpq : SideWithin W p q) (hqr : SideWithin W q r) (hA : 2 ^ (-40 : ℤ) * (W : ℝ) ^ 2 ≤ area2 p q r) :
    WithinPoint (2 ^ (-46 : ℤ) * ((W : ℝ) ^ 2 / area2 p q r)) (normalToD o p.toDbl q.toDbl r.toDbl) (normalTo (realPoint p) (realPoint q) (realPoint r)) := by
  obtain ⟨d, hd, ⟨mx, my, mz⟩, ex, ey, ez⟩ := cross_off h1 h2 hp hq hr hpq hqr
  have hW0 : 0 < W := lt_of_lt_of_le (two_zpow_pos _) h1
  have hW0' : (0 : ℝ) < (W : ℝ) ^ 2 := by positivity
  have hle := area_le hpq hqr
  have hnorm : normalTo (realPoint p) (realPoint q) (realPoint r) =
      V3.divs (realPoint (V3.cross (V3.sub q p) (V3.sub r q))) (V3.norm (realPoint (V3.cross (V3.sub q p) (V3.sub r q)))) := by rw [← cross_real]; rfl
  have harea : area2 p q r = V3.norm (realPoint (V3.cross (V3.sub q p) (V3.sub r q))) := by unfold area2; rw [cross_real]
  rw [hnorm]
  rw [harea] at hA hle ⊢
  generalize V3.cross (V3.sub q p) (V3.sub r q) = c at *
  have castErr : ∀ {a b : ℚ}, |a - b| ≤ 2 ^ (-49 : ℤ) * W ^ 2 → |(a : ℝ) - (b : ℝ)| ≤ 2 ^ (-49 : ℤ) * (W : ℝ) ^ 2 := by
    intro a b h
    have := (Rat.cast_le (K := ℝ)).2 h
    rw [Rat.cast_mul, zpow_cast, Rat.cast_abs, Rat.cast_sub, Rat.cast_pow] at this
    exact this
  have kx : |(realPoint d).x - (realPoint c).x| ≤ 2 ^ (-49 : ℤ) * (W : ℝ) ^ 2 := castErr ex
  have ky : |(realPoint d).y - (realPoint c).y| ≤ 2 ^ (-49 : ℤ) * (W : ℝ) ^ 2 := castErr ey
  have kz : |(realPoint d).z - (realPoint c).z| ≤ 2 ^ (-49 : ℤ) * (W : ℝ) ^ 2 := castErr ez
  have hN : 0 < V3.norm (realPoint c) := lt_of_lt_of_le (mul_pos (two_zpow_pos _) hW0') hA
  have hch := abs_le.1 (norm_change (realPoint c) (realPoint d) _ kx ky kz)
  have hN' : 0 < V3.norm (realPoint d) := by
    norm_num at hch hA
    linarith
  have hd0 : d ≠ ⟨0, 0, 0⟩ := by
    rintro rfl
    unfold V3.norm V3.dot realPoint at hN'
    simp at hN'
  have hu := unit_change (realPoint c) (realPoint d) _ kx ky kz hN hN'
  obtain ⟨⟨nx, fx, gx⟩, ⟨ny, fy, gy⟩, nz, fz, gz⟩ := C89_unit_partial o p q r d hd mx my mz hd0
  refine ⟨⟨nx, ny, nz⟩, V3.ext fx fy fz, ?_⟩
  have un := abs_le_norm (realPoint d)
  have hratio : (1 : ℝ) ≤ 4 * ((W : ℝ) ^ 2 / V3.norm (realPoint c)) := by
    rw [← mul_div_assoc, le_div_iff₀ hN, one_mul]
    exact hle
  have fin : ∀ {n a b : ℝ}, |n - a / V3.norm (realPoint d)| ≤ 2 ^ (-49 : ℤ) * |a / V3.norm (realPoint d)| → |a| ≤ V3.norm (realPoint d) →
      |a / V3.norm (realPoint d) - b / V3.norm (realPoint c)| ≤ 3 * (2 ^ (-49 : ℤ) * (W : ℝ) ^ 2) / V3.norm (realPoint c) →
      |n - b / V3.norm (realPoint c)| ≤ 2 ^ (-46 : ℤ) * ((W : ℝ) ^ 2 / V3.norm (realPoint c)) := by
    intro n a b g1 g2 g3
    have t := abs_sub_le n (a / V3.norm (realPoint d)) (b / V3.norm (realPoint c))
    have g2' : |a / V3.norm (realPoint d)| ≤ 1 := by
      rw [abs_div, abs_of_pos hN', div_le_one hN']
      exact g2
    have e : 3 * (2 ^ (-49 : ℤ) * (W : ℝ) ^ 2) / V3.norm (realPoint c) = 3 * 2 ^ (-49 : ℤ) * ((W : ℝ) ^ 2 / V3.norm (realPoint c)) := by ring
    rw [e] at g3
    generalize (W : ℝ) ^ 2 / V3.norm (realPoint c) = R at *
    generalize |a / V3.norm (realPoint d)| = T at *
    norm_num at g1 g3 ⊢
    linarith
  exact ⟨fin gx un.1 hu.1, fin gy un.2.1 hu.2.1, fin gz un.2.2 hu.2.2⟩

end City.Props
