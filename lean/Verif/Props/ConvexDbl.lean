import Verif.Model.ConvexDbl
import Verif.Lemmas.Approx
import Verif.Props.Convex
import Verif.Props.VecDbl
/-!
C90: `is_convex` on doubles.
-/
set_option linter.unusedSectionVars false
set_option exponentiation.threshold 2000
namespace City.Props
open City City.Spec V3

/-- Vertex number `i` of a closed polygon of doubles, `i` being read modulo the number of vertices. -/
def cycD (vs : List (V3 Dbl)) (i : Nat) : V3 Dbl := vs.getD (i % vs.length) ⟨.nan, .nan, .nan⟩

/-- Turn expression of the code at vertex `i`. -/
def turnD (o : SumOrder) (vs : List (V3 Dbl)) (i : Nat) : Dbl :=
  dotD o (crossD (vecD (cycD vs i) (cycD vs (i + 1))) (crossD (vecD (cycD vs 0) (cycD vs 1)) (vecD (cycD vs 1) (cycD vs 2)))) (vecD (cycD vs (i + 1)) (cycD vs (i + 2)))

theorem resolves_at {f : Face} {co vs : List (V3 Dbl)} (h : Resolves f co vs) (hd : 0 < f.points.length) (i : Nat) :
    Out.atOr co (f.points.getD (i % f.points.length) 0) = .ok (cycD vs i) := by
  have hl : f.points.length = vs.length := List.Forall₂.length_eq h
  have hi : i % f.points.length < f.points.length := Nat.mod_lt _ hd
  have := (List.forall₂_iff_get.1 h).2 (i % f.points.length) hi (by omega)
  rw [Out.atOr_eq_ok, List.getD_eq_getElem _ _ hi]
  simp only [List.get_eq_getElem] at this
  rw [this, cycD, List.getD_eq_getElem _ _ (by rw [← hl]; exact hi)]
  simp only [hl]

theorem isConvexD_eq {o : SumOrder} {f : Face} {co vs : List (V3 Dbl)} (h : Resolves f co vs) (hco : f.points.length ≤ co.length) (hd : 3 < f.points.length) :
    Face.isConvexD o f co = .ok (decide (∀ i < vs.length, (turnD o vs i).lt (.fin 0) = true)) := by
  have hl : f.points.length = vs.length := List.Forall₂.length_eq h
  have h0 : 0 < f.points.length := by omega
  have at0 := resolves_at h h0 0
  have at1 := resolves_at h h0 1
  have at2 := resolves_at h h0 2
  rw [Nat.mod_eq_of_lt (by omega)] at at0 at1 at2
  unfold Face.isConvexD
  simp only
  rw [if_neg (by omega), if_neg (by omega), if_pos hd, at0, Out.ok_bind, at1, Out.ok_bind, at2, Out.ok_bind]
  have hmap : (List.range f.points.length).map (Face.window f.points)
      = (List.range f.points.length).map (fun i => (f.points.getD (i % f.points.length) 0,
          f.points.getD ((i + 1) % f.points.length) 0, f.points.getD ((i + 2) % f.points.length) 0)) := by
    apply List.map_congr_left
    intro i hi
    exact window_eq (by omega) (List.mem_range.1 hi)
  rw [hmap]
  have loop : ∀ is : List Nat, Face.convexLoopD o co
      (crossD (vecD (cycD vs 0) (cycD vs 1)) (vecD (cycD vs 1) (cycD vs 2)))
      (is.map (fun i => (f.points.getD (i % f.points.length) 0,
          f.points.getD ((i + 1) % f.points.length) 0, f.points.getD ((i + 2) % f.points.length) 0)))
      = .ok (is.all fun i => (turnD o vs i).lt (.fin 0)) := by
    intro is
    induction is with
    | nil => rfl
    | cons i is ih =>
      rw [List.map_cons, Face.convexLoopD, Face.turnOkD]
      simp only [resolves_at h h0, Out.ok_bind, List.all_cons]
      show (if ((turnD o vs i).lt (.fin 0)) = true then _ else _) = _
      cases hg : (turnD o vs i).lt (.fin 0)
      · rfl
      · rw [if_pos rfl, ih, Bool.true_and]
  rw [loop]
  congr 1
  rw [Bool.eq_iff_iff]
  simp [hl]

theorem resolves_toDbl {f : Face} {co vs : List (V3 ℚ)} (h : Resolves f co vs) : Resolves f (co.map V3.toDbl) (vs.map V3.toDbl) := by
  show List.Forall₂ _ _ _
  rw [List.forall₂_map_right_iff]
  refine List.Forall₂.imp ?_ h
  intro i v hv
  rw [List.getElem?_map, hv]; rfl

theorem cycD_map (vs : List (V3 ℚ)) (hne : vs ≠ []) (i : Nat) : cycD (vs.map V3.toDbl) i = (cyc vs i).toDbl := by
  have : i % vs.length < vs.length := Nat.mod_lt _ (List.length_pos_iff.2 hne)
  unfold cycD cyc
  rw [List.length_map, List.getD_eq_getElem _ _ (by simpa using this), List.getD_eq_getElem _ _ this, List.getElem_map]

/-- If every computed turn has the sign of the exact one, the answer is the exact one. -/
theorem isConvexD_of_turns {o : SumOrder} {f : Face} {co vs : List (V3 ℚ)} (h : Resolves f co vs) (hco : f.points.length ≤ co.length) (hd : 3 < f.points.length)
    (ht : ∀ i < vs.length, (turnD o (vs.map V3.toDbl) i).lt (.fin 0) = decide (codeTurn vs i < 0)) :
    Face.isConvexD o f (co.map V3.toDbl) = Face.isConvex f co := by
  rw [isConvexD_eq (resolves_toDbl h) (by rwa [List.length_map]) hd, isConvex_eq h hco hd, List.length_map]
  congr 1
  rw [Bool.eq_iff_iff, decide_eq_true_iff, decide_eq_true_iff]
  refine forall_congr' fun i => forall_congr' fun hi => ?_
  rw [ht i hi, decide_eq_true_iff]

/-- C90 as stated: on faces whose vertices are planar and doubles `is_convex` gives the answer of exact arithmetic (C09). False: `C90_refuted`. -/
def C90_full : Prop := ∀ (o : SumOrder) (f : Face) (co vs : List (V3 ℚ)), Resolves f co vs → (∀ v ∈ vs, DoublePoint v) → (∃ N, PlanarWith N vs) → 3 < f.degree →
  f.degree ≤ co.length → Face.isConvexD o f (co.map V3.toDbl) = Face.isConvex f co

/-! ### What holds for all doubles -/

/-- C90: errors, for all doubles, infinities and NaN included. `is_convex` never has undefined behaviour; it throws `out_of_range` when the coordinate list is shorter than the face
or the degree is below three; with enough coordinates, valid indexes never throw; triangles are accepted whatever the coordinates. -/
theorem C90_errors (o : SumOrder) (f : Face) (co : List (V3 Dbl)) :
    (co.length < f.degree ∨ f.degree < 3 → Face.isConvexD o f co = .thrown .outOfRange) ∧
    (f.degree ≤ co.length → f.degree = 3 → Face.isConvexD o f co = .ok true) ∧
    (f.degree ≤ co.length → 3 ≤ f.degree → (∀ i ∈ f.points, i < co.length) → ∃ b, Face.isConvexD o f co = .ok b) ∧
    Face.isConvexD o f co ≠ .ub := by
  have h3 : f.degree ≤ co.length → f.degree = 3 → Face.isConvexD o f co = .ok true := by
    intro h1 h2
    unfold Face.isConvexD Face.degree at *
    simp only
    rw [if_neg (by omega), if_neg (by omega), if_neg (by omega)]
  refine ⟨?_, h3, ?_, ?_⟩
  · intro h
    unfold Face.isConvexD Face.degree at *
    simp only
    rcases h with h | h
    · rw [if_pos h]
    · by_cases h' : co.length < f.points.length
      · rw [if_pos h']
      · rw [if_neg h', if_pos h]
  · intro hco h3' hval
    by_cases h : 3 < f.points.length
    · have hr : Resolves f co (f.points.map fun i => co.getD i ⟨.nan, .nan, .nan⟩) := by
        show List.Forall₂ _ _ _
        rw [List.forall₂_map_right_iff, List.forall₂_same]
        intro i hi
        simp [hval i hi]
      exact ⟨_, isConvexD_eq hr hco h⟩
    · exact ⟨true, h3 hco (by unfold Face.degree at *; omega)⟩
  · have hat : ∀ i, Out.atOr co i ≠ .ub := fun i => by
      unfold Out.atOr
      split <;> intro h <;> cases h
    have hturn : ∀ n t, Face.turnOkD o co n t ≠ .ub := by
      intro n t h
      unfold Face.turnOkD at h
      rcases (Out.bind_eq_ub.1 h) with h | ⟨_, _, h⟩
      · exact hat _ h
      rcases (Out.bind_eq_ub.1 h) with h | ⟨_, _, h⟩
      · exact hat _ h
      rcases (Out.bind_eq_ub.1 h) with h | ⟨_, _, h⟩
      · exact hat _ h
      cases h
    have hloop : ∀ n ts, Face.convexLoopD o co n ts ≠ .ub := by
      intro n ts
      induction ts with
      | nil => intro h; cases h
      | cons t ts ih =>
        intro h
        unfold Face.convexLoopD at h
        rcases (Out.bind_eq_ub.1 h) with h | ⟨b, _, h⟩
        · exact hturn _ _ h
        · cases b
          · cases h
          · exact ih h
    intro h
    unfold Face.isConvexD at h
    simp only at h
    split at h
    · cases h
    split at h
    · cases h
    split at h
    · rcases (Out.bind_eq_ub.1 h) with h | ⟨_, _, h⟩
      · exact hat _ h
      rcases (Out.bind_eq_ub.1 h) with h | ⟨_, _, h⟩
      · exact hat _ h
      rcases (Out.bind_eq_ub.1 h) with h | ⟨_, _, h⟩
      · exact hat _ h
      exact hloop _ _ h
    · cases h

theorem nan_add (x : Dbl) : Dbl.nan.add x = .nan := by cases x <;> rfl
theorem add_nan (x : Dbl) : x.add .nan = .nan := by cases x <;> rfl
theorem nan_mul (x : Dbl) : Dbl.nan.mul x = .nan := by cases x <;> rfl
theorem mul_nan (x : Dbl) : x.mul .nan = .nan := by cases x <;> rfl
theorem nan_sub (x : Dbl) : Dbl.nan.sub x = .nan := nan_add _
theorem sub_nan (x : Dbl) : x.sub .nan = .nan := add_nan x
theorem sum_nan (o : SumOrder) (a b c : Dbl) (h : a = .nan ∨ b = .nan ∨ c = .nan) : o.sum a b c = .nan := by
  rcases h with rfl | rfl | rfl <;> cases o <;> simp only [SumOrder.sum, nan_add, add_nan]

/-- C90: a face of degree above three with a vertex that is not a number is refused. -/
theorem C90_nan (o : SumOrder) (f : Face) (co vs : List (V3 Dbl)) (hr : Resolves f co vs) (hco : f.degree ≤ co.length) (h3 : 3 < f.degree) (v : V3 Dbl) (hv : v ∈ vs)
    (hn : v.x = .nan ∨ v.y = .nan ∨ v.z = .nan) : Face.isConvexD o f co = .ok false := by
  obtain ⟨i, hi, rfl⟩ := List.getElem_of_mem hv
  rw [isConvexD_eq hr hco h3]
  congr 1
  rw [decide_eq_false_iff_not]
  intro h
  have hi' := h i hi
  have hc : cycD vs i = vs[i] := by unfold cycD; rw [Nat.mod_eq_of_lt hi, List.getD_eq_getElem _ _ hi]
  have : turnD o vs i = .nan := by
    unfold turnD dotD
    apply sum_nan
    rw [hc]
    rcases hn with h | h | h
    · right; left; unfold crossD vecD; simp only [h, sub_nan, nan_mul, mul_nan]
    · left; unfold crossD vecD; simp only [h, sub_nan, nan_mul, nan_sub]
    · left; unfold crossD vecD; simp only [h, sub_nan, nan_mul, mul_nan]
  rw [this] at hi'
  cases hi'

/-! ### Exact on a grid -/

/-- C90, the part that holds on a grid: when the differences of the coordinates of the vertices are integers up to 4096 in a unit that is a power of two (however far from the origin
the vertices are), the answer is the exact one, whatever the order of the sum. -/
theorem C90_grid_partial (o : SumOrder) (s : ℤ) (h1 : -268 ≤ s) (h2 : s ≤ 242) (f : Face) (co vs : List (V3 ℚ)) (hr : Resolves f co vs) (hco : f.degree ≤ co.length)
    (h3 : 3 < f.degree) (hs : ∀ v ∈ vs, ∀ w ∈ vs, ScaledPoint s (2 ^ 12) (V3.sub v w)) :
    Face.isConvexD o f (co.map V3.toDbl) = Face.isConvex f co := by
  have hl : f.points.length = vs.length := List.Forall₂.length_eq hr
  have hne : vs ≠ [] := by rintro rfl; unfold Face.degree at h3; rw [List.length_nil] at hl; omega
  refine isConvexD_of_turns hr hco h3 fun i _ => ?_
  have vec_ok : ∀ i j, vecD (cycD (vs.map V3.toDbl) i) (cycD (vs.map V3.toDbl) j) = (V3.vec (cyc vs i) (cyc vs j)).toDbl ∧
      ScaledPoint s (2 ^ 12) (V3.vec (cyc vs i) (cyc vs j)) := by
    intro i j
    obtain ⟨sx, sy, sz⟩ := hs _ (cyc_mem hne j) _ (cyc_mem hne i)
    rw [cycD_map vs hne, cycD_map vs hne]
    refine ⟨?_, sx, sy, sz⟩
    have e : ∀ {x y : ℚ}, Scaled s (2 ^ 12) (x - y) → (Dbl.fin x).sub (.fin y) = .fin (x - y) := fun h => by
      rw [Dbl.sub_fin]; exact h.exact (by norm_num) (by omega) (by omega)
    unfold vecD V3.toDbl V3.vec
    dsimp only
    rw [e sx, e sy, e sz]
  have cross_ok : ∀ {N : ℤ} {t : ℤ} {a b : V3 ℚ}, ScaledPoint s (2 ^ 12) a → ScaledPoint t N b → -1074 ≤ s + t → s + t ≤ 970 → 2 ^ 12 * N + 2 ^ 12 * N ≤ 2 ^ 53 → 0 ≤ N →
      crossD a.toDbl b.toDbl = (V3.cross a b).toDbl ∧ ScaledPoint (s + t) (2 ^ 12 * N + 2 ^ 12 * N) (V3.cross a b) := by
    rintro N t a b ⟨ax, ay, az⟩ ⟨bx, by', bz⟩ l1 l2 hN hN0
    have m : ∀ {x y : ℚ}, Scaled s (2 ^ 12) x → Scaled t N y → (Dbl.fin x).mul (.fin y) = .fin (x * y) := fun hx hy => by
      rw [Dbl.mul_fin]; exact (hx.mul hy).exact (by omega) l1 l2
    have d : ∀ {x y : ℚ}, Scaled (s + t) (2 ^ 12 * N) x → Scaled (s + t) (2 ^ 12 * N) y → (Dbl.fin x).sub (.fin y) = .fin (x - y) := fun hx hy => by
      rw [Dbl.sub_fin]; exact (hx.sub hy).exact hN l1 l2
    refine ⟨?_, (ay.mul bz).sub (az.mul by'), (az.mul bx).sub (ax.mul bz), (ax.mul by').sub (ay.mul bx)⟩
    unfold crossD V3.toDbl V3.cross
    dsimp only
    rw [m ay bz, m az by', m az bx, m ax bz, m ax by', m ay bx, d (ay.mul bz) (az.mul by'), d (az.mul bx) (ax.mul bz), d (ax.mul by') (ay.mul bx)]
  have v1 := vec_ok 0 1
  have v2 := vec_ok 1 2
  have v3 := vec_ok i (i + 1)
  have v4 := vec_ok (i + 1) (i + 2)
  have c1 := cross_ok v1.2 v2.2 (by omega) (by omega) (by norm_num) (by norm_num)
  have c2 := cross_ok v3.2 c1.2 (by omega) (by omega) (by norm_num) (by norm_num)
  have hd : turnD o (vs.map V3.toDbl) i = .fin (codeTurn vs i) := by
    unfold turnD
    rw [v1.1, v2.1, v3.1, v4.1, c1.1, c2.1]
    unfold codeTurn
    obtain ⟨ax, ay, az⟩ := c2.2
    obtain ⟨bx, by', bz⟩ := v4.2
    generalize V3.cross (V3.vec (cyc vs i) (cyc vs (i + 1))) (V3.cross (V3.vec (cyc vs 0) (cyc vs 1)) (V3.vec (cyc vs 1) (cyc vs 2))) = a at *
    generalize V3.vec (cyc vs (i + 1)) (cyc vs (i + 2)) = b at *
    have m : ∀ {x y : ℚ}, Scaled (s + (s + s)) (2 ^ 38) x → Scaled s (2 ^ 12) y → (Dbl.fin x).mul (.fin y) = .fin (x * y) ∧
        Scaled (s + (s + s) + s) (2 ^ 50) (x * y) := fun hx hy =>
      ⟨by rw [Dbl.mul_fin]; exact (hx.mul hy).exact (by norm_num) (by omega) (by omega), (hx.mul hy).mono (by norm_num)⟩
    have ad : ∀ {N : ℤ} {x y : ℚ}, Scaled (s + (s + s) + s) N x → Scaled (s + (s + s) + s) (2 ^ 50) y → N + 2 ^ 50 ≤ 2 ^ 53 →
        (Dbl.fin x).add (.fin y) = .fin (x + y) ∧ Scaled (s + (s + s) + s) (N + 2 ^ 50) (x + y) := fun hx hy hN =>
      ⟨by rw [Dbl.add_fin]; exact (hx.add hy).exact hN (by omega) (by omega), hx.add hy⟩
    have up : ∀ {x : ℚ}, Scaled (s + (s + s)) (2 ^ 12 * (2 ^ 12 * 2 ^ 12 + 2 ^ 12 * 2 ^ 12) + 2 ^ 12 * (2 ^ 12 * 2 ^ 12 + 2 ^ 12 * 2 ^ 12)) x →
        Scaled (s + (s + s)) (2 ^ 38) x := fun h => h.mono (by norm_num)
    have mx := m (up ax) bx
    have my := m (up ay) by'
    have mz := m (up az) bz
    unfold dotD V3.toDbl
    dsimp only
    rw [mx.1, my.1, mz.1]
    cases o with
    | xyz =>
      have s1 := ad mx.2 my.2 (by norm_num)
      have s2 := ad s1.2 mz.2 (by norm_num)
      unfold SumOrder.sum; dsimp only
      rw [s1.1, s2.1]; rfl
    | zyx =>
      have s1 := ad mz.2 my.2 (by norm_num)
      have s2 := ad s1.2 mx.2 (by norm_num)
      unfold SumOrder.sum; dsimp only
      rw [s1.1, s2.1]; congr 1; unfold V3.dot; ring
    | xzy =>
      have s1 := ad mx.2 mz.2 (by norm_num)
      have s2 := ad s1.2 my.2 (by norm_num)
      unfold SumOrder.sum; dsimp only
      rw [s1.1, s2.1]; congr 1; unfold V3.dot; ring
  rw [hd]
  rfl

/-! ### Right when no corner is too flat -/

/-- Twice the area vector of the corner at vertex `i + 1`. -/
def corner (vs : List (V3 ℚ)) (i : Nat) : V3 ℚ := V3.cross (V3.sub (cyc vs (i + 1)) (cyc vs i)) (V3.sub (cyc vs (i + 2)) (cyc vs (i + 1)))

theorem app_sign {k B : ℚ} {d : Dbl} {x : ℚ} (h : App k B d x) (hx : k * 2 ^ (-52 : ℤ) * B < |x|) : d.lt (.fin 0) = decide (x < 0) := by
  obtain ⟨h1, q, rfl, h3⟩ := h
  show decide (q < 0) = decide (x < 0)
  rw [Bool.eq_iff_iff, decide_eq_true_iff, decide_eq_true_iff]
  have h3' := abs_le.1 h3
  rcases lt_or_ge x 0 with h | h
  · rw [abs_of_neg h] at hx
    exact ⟨fun _ => h, fun _ => by linarith⟩
  · rw [abs_of_nonneg h] at hx
    exact ⟨fun hq => by linarith, fun hq => absurd hq (not_lt.2 h)⟩

/-- C90, the part that holds for all doubles: when the vertices are within `M` of each other in every coordinate and at no corner the product of its area vector with that of the first
corner is below `2^-44 M^4`, the answer is the exact one, whatever the order of the sum. -/
theorem C90_robust_partial (o : SumOrder) (M : ℚ) (h1 : 2 ^ (-240 : ℤ) ≤ M) (h2 : M ≤ 2 ^ (240 : ℤ)) (f : Face) (co vs : List (V3 ℚ)) (hr : Resolves f co vs)
    (hco : f.degree ≤ co.length) (h3 : 3 < f.degree) (hd : ∀ v ∈ vs, DoublePoint v)
    (hM : ∀ v ∈ vs, ∀ w ∈ vs, |(V3.sub v w).x| ≤ M ∧ |(V3.sub v w).y| ≤ M ∧ |(V3.sub v w).z| ≤ M)
    (ht : ∀ i < vs.length, 2 ^ (-44 : ℤ) * M ^ 4 < |V3.dot (corner vs 0) (corner vs i)|) :
    Face.isConvexD o f (co.map V3.toDbl) = Face.isConvex f co := by
  have hl : f.points.length = vs.length := List.Forall₂.length_eq hr
  have hne : vs ≠ [] := by rintro rfl; unfold Face.degree at h3; rw [List.length_nil] at hl; omega
  have hM0 : 0 < M := lt_of_lt_of_le (two_zpow_pos _) h1
  have pow_lo : ∀ n : ℕ, n ≤ 4 → (2 : ℚ) ^ (-1000 : ℤ) ≤ M ^ n := fun n hn => by
    have : (2 : ℚ) ^ (-240 * n : ℤ) ≤ M ^ n := by
      rw [zpow_mul, zpow_natCast]; exact pow_le_pow_left₀ (two_zpow_pos _).le h1 n
    refine le_trans (zpow_le_zpow_right₀ (by norm_num) ?_) this
    omega
  have pow_hi : ∀ n : ℕ, n ≤ 4 → M ^ n ≤ 2 ^ (960 : ℤ) := fun n hn => by
    have : M ^ n ≤ (2 : ℚ) ^ (240 * n : ℤ) := by
      rw [zpow_mul, zpow_natCast]; exact pow_le_pow_left₀ hM0.le h2 n
    refine le_trans this (zpow_le_zpow_right₀ (by norm_num) ?_)
    omega
  have lo : ∀ (c : ℚ) (n : ℕ), n ≤ 4 → 1 ≤ c → (2 : ℚ) ^ (-1000 : ℤ) ≤ c * M ^ n := fun c n hn hc =>
    (pow_lo n hn).trans (by have := pow_pos hM0 n; nlinarith)
  have hi : ∀ (c : ℚ) (n : ℕ), n ≤ 4 → 0 ≤ c → c ≤ 2 ^ (39 : ℤ) → c * M ^ n ≤ 2 ^ (999 : ℤ) := fun c n hn hc0 hc => by
    have := mul_le_mul hc (pow_hi n hn) (pow_nonneg hM0.le n) (two_zpow_pos _).le
    rwa [← zpow_add₀ (by norm_num)] at this
  refine isConvexD_of_turns hr hco h3 fun i hi' => ?_
  have dsub : ∀ {x y : ℚ}, IsDouble x → IsDouble y → |x - y| ≤ M → App 1 M ((Dbl.fin x).sub (.fin y)) (x - y) := by
    intro x y hx hy h
    refine ⟨h, fl (x - y), ?_, ?_⟩
    · rw [Dbl.sub_fin, Dbl.ofExact_eq (fl_finite h (h2.trans (zpow_le_zpow_right₀ (by norm_num) (by norm_num))))]
    · refine (fl_sub_rel (double_bits hx) (double_bits hy)).trans ?_
      rw [one_mul]
      exact mul_le_mul (zpow_le_zpow_right₀ (by norm_num) (by norm_num)) h (abs_nonneg _) (two_zpow_pos _).le
  have vec_ok : ∀ i j, App 1 M (vecD (cycD (vs.map V3.toDbl) i) (cycD (vs.map V3.toDbl) j)).x (V3.vec (cyc vs i) (cyc vs j)).x ∧
      App 1 M (vecD (cycD (vs.map V3.toDbl) i) (cycD (vs.map V3.toDbl) j)).y (V3.vec (cyc vs i) (cyc vs j)).y ∧
      App 1 M (vecD (cycD (vs.map V3.toDbl) i) (cycD (vs.map V3.toDbl) j)).z (V3.vec (cyc vs i) (cyc vs j)).z := by
    intro i j
    obtain ⟨mx, my, mz⟩ := hM _ (cyc_mem hne j) _ (cyc_mem hne i)
    obtain ⟨ax, ay, az⟩ := hd _ (cyc_mem hne j)
    obtain ⟨bx, by', bz⟩ := hd _ (cyc_mem hne i)
    rw [cycD_map vs hne, cycD_map vs hne]
    exact ⟨dsub ax bx mx, dsub ay by' my, dsub az bz mz⟩
  obtain ⟨ax, ay, az⟩ := vec_ok 0 1
  obtain ⟨bx, by', bz⟩ := vec_ok 1 2
  obtain ⟨cx, cy, cz⟩ := vec_ok i (i + 1)
  obtain ⟨dx, dy, dz⟩ := vec_ok (i + 1) (i + 2)
  have hcode : codeTurn vs i = - V3.dot (corner vs 0) (corner vs i) := by
    simp only [codeTurn, corner, V3.dot, V3.cross, V3.vec, V3.sub]; ring
  have hx := ht i hi'
  rw [← abs_neg, ← hcode] at hx
  unfold turnD
  unfold codeTurn at hx ⊢
  generalize vecD (cycD (vs.map V3.toDbl) 0) (cycD (vs.map V3.toDbl) 1) = a at *
  generalize vecD (cycD (vs.map V3.toDbl) 1) (cycD (vs.map V3.toDbl) 2) = b at *
  generalize vecD (cycD (vs.map V3.toDbl) i) (cycD (vs.map V3.toDbl) (i + 1)) = c at *
  generalize vecD (cycD (vs.map V3.toDbl) (i + 1)) (cycD (vs.map V3.toDbl) (i + 2)) = d at *
  generalize V3.vec (cyc vs 0) (cyc vs 1) = a' at *
  generalize V3.vec (cyc vs 1) (cyc vs 2) = b' at *
  generalize V3.vec (cyc vs i) (cyc vs (i + 1)) = c' at *
  generalize V3.vec (cyc vs (i + 1)) (cyc vs (i + 2)) = d' at *
  have B : ∀ {k l : ℚ} {m n : ℕ} {p q : ℚ} {d e : Dbl} {x y : ℚ}, App k (p * M ^ m) d x → App l (q * M ^ n) e y → 0 ≤ k → k ≤ 1024 → 0 ≤ l → l ≤ 1024 → m + n ≤ 4 →
      1 ≤ p * q → p * q ≤ 2 ^ (39 : ℤ) → App (k + l + 1) (p * q * M ^ (m + n)) (d.mul e) (x * y) := by
    intro k l m n p q d e x y h h' k0 k1 l0 l1 hmn hpq hpq'
    have e1 : p * M ^ m * (q * M ^ n) = p * q * M ^ (m + n) := by rw [pow_add]; ring
    have := h.mul h' k0 k1 l0 l1 (by rw [e1]; exact hi _ _ hmn (by linarith) hpq') (by rw [e1]; exact lo _ _ hmn hpq)
    rwa [e1] at this
  have S : ∀ {k : ℚ} {n : ℕ} {p q : ℚ} {d e : Dbl} {x y : ℚ}, App k (p * M ^ n) d x → App k (q * M ^ n) e y → 0 ≤ k → k ≤ 1024 → n ≤ 4 →
      1 ≤ p + q → p + q ≤ 2 ^ (39 : ℤ) → App (k + 1) ((p + q) * M ^ n) (d.sub e) (x - y) ∧ App (k + 1) ((p + q) * M ^ n) (d.add e) (x + y) := by
    intro k n p q d e x y h h' k0 k1 hn hpq hpq'
    have e1 : p * M ^ n + q * M ^ n = (p + q) * M ^ n := by ring
    have b1 : p * M ^ n + q * M ^ n ≤ 2 ^ (999 : ℤ) := by rw [e1]; exact hi _ _ hn (by linarith) hpq'
    have b2 : 2 ^ (-1000 : ℤ) ≤ p * M ^ n + q * M ^ n := by rw [e1]; exact lo _ _ hn hpq
    have g1 := h.sub h' k0 k1 b1 b2
    have g2 := h.add h' k0 k1 b1 b2
    rw [e1] at g1 g2
    exact ⟨g1, g2⟩
  have one : ∀ {d : Dbl} {x : ℚ}, App 1 M d x → App 1 (1 * M ^ 1) d x := fun h => by rwa [one_mul, pow_one]
  have cross1 : ∀ {p1 p2 q1 q2 : Dbl} {x1 x2 y1 y2 : ℚ}, App 1 M p1 x1 → App 1 M q1 y1 → App 1 M p2 x2 → App 1 M q2 y2 →
      App 4 (2 * M ^ 2) ((p1.mul q1).sub (p2.mul q2)) (x1 * y1 - x2 * y2) := by
    intro p1 p2 q1 q2 x1 x2 y1 y2 g1 g2 g3 g4
    have m1 := B (one g1) (one g2) (by norm_num) (by norm_num) (by norm_num) (by norm_num) (by norm_num) (by norm_num) (by norm_num)
    have m2 := B (one g3) (one g4) (by norm_num) (by norm_num) (by norm_num) (by norm_num) (by norm_num) (by norm_num) (by norm_num)
    have := (S m1 m2 (by norm_num) (by norm_num) (by norm_num) (by norm_num) (by norm_num)).1
    norm_num at this
    exact this
  have cross2 : ∀ {p1 p2 q1 q2 : Dbl} {x1 x2 y1 y2 : ℚ}, App 1 M p1 x1 → App 4 (2 * M ^ 2) q1 y1 → App 1 M p2 x2 → App 4 (2 * M ^ 2) q2 y2 →
      App 7 (4 * M ^ 3) ((p1.mul q1).sub (p2.mul q2)) (x1 * y1 - x2 * y2) := by
    intro p1 p2 q1 q2 x1 x2 y1 y2 g1 g2 g3 g4
    have m1 := B (one g1) g2 (by norm_num) (by norm_num) (by norm_num) (by norm_num) (by norm_num) (by norm_num) (by norm_num)
    have m2 := B (one g3) g4 (by norm_num) (by norm_num) (by norm_num) (by norm_num) (by norm_num) (by norm_num) (by norm_num)
    have := (S m1 m2 (by norm_num) (by norm_num) (by norm_num) (by norm_num) (by norm_num)).1
    norm_num at this
    exact this
  have nx := cross1 ay bz az by'
  have ny := cross1 az bx ax bz
  have nz := cross1 ax by' ay bx
  have ex := cross2 cy nz cz ny
  have ey := cross2 cz nx cx nz
  have ez := cross2 cx ny cy nx
  have prod : ∀ {p q : Dbl} {x y : ℚ}, App 7 (4 * M ^ 3) p x → App 1 M q y → App 9 (4 * M ^ 4) (p.mul q) (x * y) := by
    intro p q x y g1 g2
    have := B g1 (one g2) (by norm_num) (by norm_num) (by norm_num) (by norm_num) (by norm_num) (by norm_num) (by norm_num)
    norm_num at this
    exact this
  have sum3 : ∀ {p q r : Dbl} {x y z : ℚ}, App 9 (4 * M ^ 4) p x → App 9 (4 * M ^ 4) q y → App 9 (4 * M ^ 4) r z → App 11 (12 * M ^ 4) ((p.add q).add r) (x + y + z) := by
    intro p q r x y z g1 g2 g3
    have s1 := (S g1 g2 (by norm_num) (by norm_num) (by norm_num) (by norm_num) (by norm_num)).2
    have s2 := (S s1 (g3.mono (by norm_num : (9 : ℚ) ≤ 9 + 1)) (by norm_num) (by norm_num) (by norm_num) (by norm_num) (by norm_num)).2
    norm_num at s2
    exact s2
  have px := prod ex dx
  have py := prod ey dy
  have pz := prod ez dz
  have hbound : (11 : ℚ) * 2 ^ (-52 : ℤ) * (12 * M ^ 4) ≤ 2 ^ (-44 : ℤ) * M ^ 4 := by
    have : (0 : ℚ) ≤ M ^ 4 := by positivity
    norm_num
    linarith
  cases o with
  | xyz => exact app_sign (sum3 px py pz) (lt_of_le_of_lt hbound hx)
  | zyx =>
    have e : V3.dot (V3.cross c' (V3.cross a' b')) d' = (V3.cross c' (V3.cross a' b')).z * d'.z + (V3.cross c' (V3.cross a' b')).y * d'.y +
        (V3.cross c' (V3.cross a' b')).x * d'.x := by unfold V3.dot; ring
    rw [e] at hx ⊢
    exact app_sign (sum3 pz py px) (lt_of_le_of_lt hbound hx)
  | xzy =>
    have e : V3.dot (V3.cross c' (V3.cross a' b')) d' = (V3.cross c' (V3.cross a' b')).x * d'.x + (V3.cross c' (V3.cross a' b')).z * d'.z +
        (V3.cross c' (V3.cross a' b')).y * d'.y := by unfold V3.dot; ring
    rw [e] at hx ⊢
    exact app_sign (sum3 px pz py) (lt_of_le_of_lt hbound hx)

/-! ### What goes wrong -/

/-- A polygon that turns slightly the wrong way at its second vertex. -/
def dented : List (V3 ℚ) := [⟨(2 : ℤ) * 2 ^ (-52 : ℤ), (3 : ℤ) * 2 ^ (-52 : ℤ), 0⟩, ⟨(1 : ℤ), (3 : ℤ), 0⟩, ⟨(4 : ℤ), (6755399441055745 : ℤ) * 2 ^ (-49 : ℤ), 0⟩, ⟨(-10 : ℤ), (10 : ℤ), 0⟩]

/-- A strictly convex polygon that is nearly flat at its second vertex. -/
def blunt : List (V3 ℚ) := [⟨(1 : ℤ) * 2 ^ (-60 : ℤ), 0, 0⟩, ⟨(1 : ℤ), (1 : ℤ), 0⟩, ⟨(2 : ℤ), (2 : ℤ), 0⟩, ⟨(2 : ℤ), 0, 0⟩]

/-- A square of side 2^-300. -/
def speck : List (V3 ℚ) := [⟨0, 0, 0⟩, ⟨(1 : ℤ) * 2 ^ (-300 : ℤ), 0, 0⟩, ⟨(1 : ℤ) * 2 ^ (-300 : ℤ), (1 : ℤ) * 2 ^ (-300 : ℤ), 0⟩, ⟨0, (1 : ℤ) * 2 ^ (-300 : ℤ), 0⟩]

theorem double_scaled (m e : ℤ) (hm : |m| < 2 ^ 53) (h1 : -1074 ≤ e) (h2 : e ≤ 971) : IsDouble (m * 2 ^ e) := ⟨m, e, hm, h1, h2, rfl⟩

theorem double_z (m : ℤ) (hm : |m| < 2 ^ 53) : IsDouble m := ⟨m, 0, hm, by norm_num, by norm_num, by norm_num⟩

theorem quad_resolves (a b c d : V3 ℚ) : Resolves ⟨[0, 1, 2, 3]⟩ [a, b, c, d] [a, b, c, d] := by simp [Resolves]

theorem flat_planar (vs : List (V3 ℚ)) (h : ∀ v ∈ vs, v.z = 0) : ∃ N, PlanarWith N vs :=
  ⟨⟨0, 0, 1⟩, by intro h; have := congrArg V3.z h; simp [zero] at this, fun v hv w hw => by simp [dot, sub, h v hv, h w hw]⟩

theorem dented_double : ∀ v ∈ dented, DoublePoint v := by
  intro v hv
  simp only [dented, List.mem_cons, List.not_mem_nil, or_false] at hv
  rcases hv with rfl | rfl | rfl | rfl
  · exact ⟨double_scaled _ _ (by norm_num) (by norm_num) (by norm_num), double_scaled _ _ (by norm_num) (by norm_num) (by norm_num), double_0⟩
  · exact ⟨double_z _ (by norm_num), double_z _ (by norm_num), double_0⟩
  · exact ⟨double_z _ (by norm_num), double_scaled _ _ (by norm_num) (by norm_num) (by norm_num), double_0⟩
  · exact ⟨double_z _ (by norm_num), double_z _ (by norm_num), double_0⟩

theorem blunt_double : ∀ v ∈ blunt, DoublePoint v := by
  intro v hv
  simp only [blunt, List.mem_cons, List.not_mem_nil, or_false] at hv
  rcases hv with rfl | rfl | rfl | rfl
  · exact ⟨double_scaled _ _ (by norm_num) (by norm_num) (by norm_num), double_0, double_0⟩
  · exact ⟨double_z _ (by norm_num), double_z _ (by norm_num), double_0⟩
  · exact ⟨double_z _ (by norm_num), double_z _ (by norm_num), double_0⟩
  · exact ⟨double_z _ (by norm_num), double_0, double_0⟩

theorem speck_double : ∀ v ∈ speck, DoublePoint v := by
  intro v hv
  have h : IsDouble ((1 : ℤ) * 2 ^ (-300 : ℤ)) := double_scaled _ _ (by norm_num) (by norm_num) (by norm_num)
  simp only [speck, List.mem_cons, List.not_mem_nil, or_false] at hv
  rcases hv with rfl | rfl | rfl | rfl
  · exact ⟨double_0, double_0, double_0⟩
  · exact ⟨h, double_0, double_0⟩
  · exact ⟨h, h, double_0⟩
  · exact ⟨double_0, h, double_0⟩

/-- C90 fails in every way it can, whatever the order of the sum: a quadrilateral that is not convex is accepted; and refused when the face starts at another vertex; strictly convex
quadrilaterals are refused because a corner is too flat or because they are too small. -/
theorem C90_refuted_each (o : SumOrder) :
    ((∀ v ∈ dented, DoublePoint v) ∧ ¬ StrictlyConvex dented ∧ Face.isConvexD o ⟨[0, 1, 2, 3]⟩ (dented.map V3.toDbl) = .ok true ∧
      Face.isConvexD o ⟨[1, 2, 3, 0]⟩ (dented.map V3.toDbl) = .ok false) ∧
    ((∀ v ∈ blunt, DoublePoint v) ∧ StrictlyConvex blunt ∧ Face.isConvexD o ⟨[0, 1, 2, 3]⟩ (blunt.map V3.toDbl) = .ok false) ∧
    ((∀ v ∈ speck, DoublePoint v) ∧ StrictlyConvex speck ∧ Face.isConvexD o ⟨[0, 1, 2, 3]⟩ (speck.map V3.toDbl) = .ok false) := by
  have q1 := C09_quad_exact ⟨[0, 1, 2, 3]⟩ dented dented (quad_resolves _ _ _ _) (by decide) rfl (flat_planar _ (by decide +kernel))
  have q2 := C09_quad_exact ⟨[0, 1, 2, 3]⟩ blunt blunt (quad_resolves _ _ _ _) (by decide) rfl (flat_planar _ (by decide +kernel))
  have q3 := C09_quad_exact ⟨[0, 1, 2, 3]⟩ speck speck (quad_resolves _ _ _ _) (by decide) rfl (flat_planar _ (by decide +kernel))
  refine ⟨⟨dented_double, ?_, ?_, ?_⟩, ⟨blunt_double, ?_, ?_⟩, speck_double, ?_, ?_⟩
  · rw [← q1]; decide +kernel
  · cases o <;> decide +kernel
  · cases o <;> decide +kernel
  · rw [← q2]; decide +kernel
  · cases o <;> decide +kernel
  · rw [← q3]; decide +kernel
  · cases o <;> decide +kernel

theorem C90_refuted : ¬ C90_full := by
  intro h
  have := h .xyz ⟨[0, 1, 2, 3]⟩ dented dented (quad_resolves _ _ _ _) dented_double (flat_planar _ (by decide +kernel)) (by decide) (by decide)
  rw [(C90_refuted_each .xyz).1.2.2.1] at this
  exact (C90_refuted_each .xyz).1.2.1 ((C09_quad_exact ⟨[0, 1, 2, 3]⟩ dented dented (quad_resolves _ _ _ _) (by decide) rfl (flat_planar _ (by decide +kernel))).1 this.symm)

/-- C90: a strictly convex face is accepted, and a planar quadrilateral that is not strictly convex is refused, when no corner is too flat for its size. -/
theorem C90_convex_partial (o : SumOrder) (M : ℚ) (h1 : 2 ^ (-240 : ℤ) ≤ M) (h2 : M ≤ 2 ^ (240 : ℤ)) (f : Face) (co vs : List (V3 ℚ)) (hr : Resolves f co vs)
    (hco : f.degree ≤ co.length) (h3 : 3 < f.degree) (hd : ∀ v ∈ vs, DoublePoint v)
    (hM : ∀ v ∈ vs, ∀ w ∈ vs, |(V3.sub v w).x| ≤ M ∧ |(V3.sub v w).y| ≤ M ∧ |(V3.sub v w).z| ≤ M)
    (ht : ∀ i < vs.length, 2 ^ (-44 : ℤ) * M ^ 4 < |V3.dot (corner vs 0) (corner vs i)|) :
    (StrictlyConvex vs → Face.isConvexD o f (co.map V3.toDbl) = .ok true) ∧
    (f.degree = 4 → (∃ N, PlanarWith N vs) → ¬ StrictlyConvex vs → Face.isConvexD o f (co.map V3.toDbl) = .ok false) := by
  have e := C90_robust_partial o M h1 h2 f co vs hr hco h3 hd hM ht
  refine ⟨fun hc => by rw [e, C09_accepts_convex f co vs hr hco (by omega) hc], fun h4 hp hn => ?_⟩
  rw [e]
  have hq := (C09_quad_exact f co vs hr hco h4 hp).not.2 hn
  have hx := isConvex_eq hr hco h3
  rw [hx] at hq ⊢
  cases h : decide (∀ i < vs.length, codeTurn vs i < 0)
  · rfl
  · exact absurd (by rw [h]) hq

/-- A square with the doubles nearest to tenths, far from the origin in `y`. -/
def plot : List (V3 ℚ) := [⟨tenths 1, 6862000, 0⟩, ⟨tenths 100, 6862000, 0⟩, ⟨tenths 100, 6862010, 0⟩, ⟨tenths 1, 6862010, 0⟩]

/-- The hypotheses of `C90_robust_partial` and `C90_convex_partial` hold for a plot of ten metres. -/
example (o : SumOrder) : Face.isConvexD o ⟨[0, 1, 2, 3]⟩ (plot.map V3.toDbl) = .ok true := by
  have d1 : IsDouble (tenths 1) := double_tenth 1 7205759403792794 (-56) (by decide +kernel) (by norm_num) (by norm_num) (by norm_num)
  have d2 : IsDouble (tenths 100) := double_tenth 100 10 0 (by decide +kernel) (by norm_num) (by norm_num) (by norm_num)
  have d3 : IsDouble 6862000 := by simpa using double_z 6862000 (by norm_num)
  have d4 : IsDouble 6862010 := by simpa using double_z 6862010 (by norm_num)
  have q := C09_quad_exact ⟨[0, 1, 2, 3]⟩ plot plot (quad_resolves _ _ _ _) (by decide) rfl (flat_planar _ (by decide +kernel))
  refine (C90_convex_partial o 10 (le_trans (zpow_le_zpow_right₀ (by norm_num) (by norm_num : (-240 : ℤ) ≤ 0)) (by norm_num))
    (le_trans (by norm_num : (10 : ℚ) ≤ 2 ^ (4 : ℤ)) (zpow_le_zpow_right₀ (by norm_num) (by norm_num))) ⟨[0, 1, 2, 3]⟩ plot plot
    (quad_resolves _ _ _ _) (by decide) (by decide) ?_ (by decide +kernel) (by decide +kernel)).1 (q.1 (by decide +kernel))
  intro v hv
  simp only [plot, List.mem_cons, List.not_mem_nil, or_false] at hv
  rcases hv with rfl | rfl | rfl | rfl
  · exact ⟨d1, d3, double_0⟩
  · exact ⟨d2, d3, double_0⟩
  · exact ⟨d2, d4, double_0⟩
  · exact ⟨d1, d4, double_0⟩

/-- The hypotheses of `C90_grid_partial` hold for the unit square. -/
example (o : SumOrder) : Face.isConvexD o ⟨[0, 1, 2, 3]⟩ ([⟨0, 0, 0⟩, ⟨1, 0, 0⟩, ⟨1, 1, 0⟩, ⟨0, 1, 0⟩].map V3.toDbl) = .ok true := by
  have := C90_grid_partial o 0 (by norm_num) (by norm_num) ⟨[0, 1, 2, 3]⟩ [⟨0, 0, 0⟩, ⟨1, 0, 0⟩, ⟨1, 1, 0⟩, ⟨0, 1, 0⟩] _ (quad_resolves _ _ _ _) (by decide) (by decide) (by
    have z : Scaled 0 (2 ^ 12) 0 := ⟨0, by norm_num, by norm_num⟩
    have p : Scaled 0 (2 ^ 12) 1 := ⟨1, by norm_num, by norm_num⟩
    have m : Scaled 0 (2 ^ 12) (-1) := ⟨-1, by norm_num, by norm_num⟩
    intro v hv w hw
    simp only [List.mem_cons, List.not_mem_nil, or_false] at hv hw
    rcases hv with rfl | rfl | rfl | rfl <;> rcases hw with rfl | rfl | rfl | rfl <;> refine ⟨?_, ?_, ?_⟩ <;> simp only [V3.sub, sub_self, sub_zero, zero_sub] <;> assumption)
  rw [this]
  decide +kernel

end City.Props
