import Verif.Props.Convex
/-!
Property C09: which of the polygons accepted by `is_convex` are convex. A polygon that turns to the same side everywhere may wind around several times;
it does not, and is strictly convex, exactly if in some direction it goes up once and down once.
-/
set_option linter.unusedSectionVars false
namespace City.Spec
open City V3
section
variable {K : Type} [Field K] [LinearOrder K]

/-- In some direction `d` the border of the polygon goes up once and down once: beginning at some corner the heights of `p` edges increase, and those of all
the others decrease. -/
def UpAndDown (vs : List (V3 K)) : Prop :=
  ∃ (d : V3 K) (m p : Nat), p ≤ vs.length ∧ (∀ i < p, dot d (cyc vs (m + i)) < dot d (cyc vs (m + i + 1))) ∧
    ∀ i < vs.length, p ≤ i → dot d (cyc vs (m + i + 1)) < dot d (cyc vs (m + i))
end
end City.Spec

namespace City.Props
open City Spec V3
section
variable {K : Type} [Field K] [LinearOrder K] [IsStrictOrderedRing K]

/-- If the terms of a sum are positive first, and negative as soon as one is not positive, and the whole sum is zero, its proper beginnings are positive. -/
theorem sums_positive (f : Nat → K) (n : Nat) (h0 : 0 < f 0) (hn : ∀ k, k + 1 < n → f k ≤ 0 → f (k + 1) < 0)
    (hs : ∑ k ∈ Finset.range n, f k = 0) (k : Nat) (hk : 0 < k) (hkn : k < n) : 0 < ∑ j ∈ Finset.range k, f j := by
  by_contra hc
  push Not at hc
  have hex : ∃ j < k, f j ≤ 0 := by
    by_contra hno
    push Not at hno
    have : 0 < ∑ j ∈ Finset.range k, f j :=
      Finset.sum_pos (fun j hj => hno j (Finset.mem_range.1 hj)) ⟨0, Finset.mem_range.2 hk⟩
    linarith
  obtain ⟨j, hj, hfj⟩ := hex
  have neg : ∀ l, j + l + 1 < n → f (j + l + 1) < 0 := by
    intro l
    induction l with
    | zero => intro h; exact hn j h hfj
    | succ l ih => intro h; exact hn _ h (le_of_lt (ih (by omega)))
  have hsplit := Finset.sum_range_add_sum_Ico f (le_of_lt hkn)
  have : ∑ l ∈ Finset.Ico k n, f l < 0 := by
    refine Finset.sum_neg (fun l hl => ?_) ⟨k, Finset.mem_Ico.2 ⟨le_refl _, hkn⟩⟩
    have hl := Finset.mem_Ico.1 hl
    have := neg (l - j - 1) (by omega)
    rwa [show j + (l - j - 1) + 1 = l by omega] at this
  linarith

/-- The relation between three vectors of a plane, seen in a direction. -/
theorem plane_relation (N d u v w : V3 K) (hu : dot N u = 0) (hv : dot N v = 0) (hw : dot N w = 0) :
    dot N (cross u v) * dot d w + dot N (cross v w) * dot d u + dot N (cross w u) * dot d v = 0 := by
  simp only [dot, cross] at *
  linear_combination (d.x * (v.y * w.z - v.z * w.y) + d.y * (v.z * w.x - v.x * w.z) + d.z * (v.x * w.y - v.y * w.x)) * hu +
    (d.x * (w.y * u.z - w.z * u.y) + d.y * (w.z * u.x - w.x * u.z) + d.z * (w.x * u.y - w.y * u.x)) * hv +
    (d.x * (u.y * v.z - u.z * v.y) + d.y * (u.z * v.x - u.x * v.z) + d.z * (u.x * v.y - u.y * v.x)) * hw

theorem cross_sum (N a : V3 K) (V : Nat → V3 K) (i : Nat) : ∀ k,
    ∑ j ∈ Finset.range k, dot N (cross a (sub (V (i + j + 1)) (V (i + j)))) = dot N (cross a (sub (V (i + k)) (V i)))
  | 0 => by simp [dot, cross, sub]
  | k + 1 => by
    rw [Finset.sum_range_succ, cross_sum N a V i k, show i + (k + 1) = i + k + 1 from rfl]
    simp only [dot, cross, sub]
    ring

/-- Edges that all go up (or all go down) and turn to the left from each to the next turn to the left from each to any later one. -/
theorem turns_on (N d : V3 K) (E : Nat → V3 K) (hE : ∀ i, dot N (E i) = 0) (ht : ∀ i, 0 < dot N (cross (E i) (E (i + 1)))) (i : Nat) :
    ∀ k, (∀ l ≤ k + 1, 0 < dot d (E (i + l))) → 0 < dot N (cross (E i) (E (i + k + 1)))
  | 0, _ => ht i
  | k + 1, h => by
    have ih := turns_on N d E hE ht i k fun l hl => h l (by omega)
    have r := plane_relation N d (E i) (E (i + k + 1)) (E (i + (k + 1) + 1)) (hE _) (hE _) (hE _)
    have t : 0 < dot N (cross (E (i + k + 1)) (E (i + (k + 1) + 1))) := ht (i + k + 1)
    have h0 : 0 < dot d (E i) := h 0 (by omega)
    have h1 : 0 < dot d (E (i + k + 1)) := h (k + 1) (by omega)
    have h2 : 0 < dot d (E (i + (k + 1) + 1)) := h (k + 1 + 1) (by omega)
    have e : dot N (cross (E (i + (k + 1) + 1)) (E i)) = - dot N (cross (E i) (E (i + (k + 1) + 1))) := by
      simp only [dot, cross]; ring
    rw [e] at r
    have p1 := mul_pos ih h2
    have p2 := mul_pos t h0
    by_contra hc
    push Not at hc
    have p3 := mul_nonneg (neg_nonneg.2 hc) (le_of_lt h1)
    linarith

/-- The edges that go up: every corner other than its ends is to the left of such an edge. -/
theorem left_of_rising (N d : V3 K) (V : Nat → V3 K) (n p : Nat) (hpn : p ≤ n) (hper : ∀ i, V (i + n) = V i) (hpl : ∀ i j, dot N (sub (V i) (V j)) = 0)
    (hturn : ∀ i, Left N (V i) (V (i + 1)) (V (i + 2))) (hup : ∀ i < p, dot d (V i) < dot d (V (i + 1)))
    (hdown : ∀ i < n, p ≤ i → dot d (V (i + 1)) < dot d (V i)) (i : Nat) (hi : i < p) (k : Nat) (hk : 0 < k) (hkn : k + 1 < n) :
    Left N (V i) (V (i + 1)) (V (i + 1 + k)) := by
  set E : Nat → V3 K := fun i => sub (V (i + 1)) (V i) with hEdef
  have hE : ∀ i, dot N (E i) = 0 := fun i => hpl _ _
  have hEper : ∀ i, E (i + n) = E i := fun i => by
    show sub (V (i + n + 1)) (V (i + n)) = sub (V (i + 1)) (V i)
    rw [hper i, show i + n + 1 = i + 1 + n by omega, hper (i + 1)]
  have ht : ∀ i, 0 < dot N (cross (E i) (E (i + 1))) := fun i => by
    have h := hturn i
    unfold Left at h
    have e : dot N (cross (E i) (E (i + 1))) = dot N (cross (sub (V (i + 1)) (V i)) (sub (V (i + 2)) (V i))) := by
      show dot N (cross (sub (V (i + 1)) (V i)) (sub (V (i + 2)) (V (i + 1)))) = _
      simp only [dot, cross, sub]; ring
    rw [e]; exact h
  have hU : ∀ i < p, 0 < dot d (E i) := fun i hi => by
    have := hup i hi
    show 0 < dot d (sub (V (i + 1)) (V i))
    simp only [dot, sub] at this ⊢; linarith
  have hD : ∀ i < n, p ≤ i → dot d (E i) < 0 := fun i hi hp => by
    have := hdown i hi hp
    show dot d (sub (V (i + 1)) (V i)) < 0
    simp only [dot, sub] at this ⊢; linarith
  have anti : ∀ u v : V3 K, dot N (cross v u) = - dot N (cross u v) := fun u v => by simp only [dot, cross]; ring
  have fwd : ∀ a b, a < b → b < p → 0 < dot N (cross (E a) (E b)) := fun a b hab hb => by
    have := turns_on N d E hE ht a (b - a - 1) fun l hl => hU _ (by omega)
    rwa [show a + (b - a - 1) + 1 = b by omega] at this
  have key := sums_positive (fun j => dot N (cross (E i) (E (i + 1 + j)))) (n - 1) (ht i) ?_ ?_ k hk (by omega)
  · have hsum := cross_sum N (E i) V (i + 1) k
    rw [show (∑ j ∈ Finset.range k, dot N (cross (E i) (E (i + 1 + j)))) = _ from hsum] at key
    unfold Left
    have e : dot N (cross (sub (V (i + 1)) (V i)) (sub (V (i + 1 + k)) (V i))) = dot N (cross (E i) (sub (V (i + 1 + k)) (V (i + 1)))) := by
      show _ = dot N (cross (sub (V (i + 1)) (V i)) (sub (V (i + 1 + k)) (V (i + 1))))
      simp only [dot, cross, sub]; ring
    rw [e]; exact key
  · intro j hj hle
    rcases lt_or_ge (i + 1 + j) p with h1 | h1
    · exact absurd (fwd i (i + 1 + j) (by omega) h1) (not_lt.2 hle)
    rcases lt_or_ge (i + 1 + (j + 1)) n with h2 | h2
    · have r := plane_relation N d (E i) (E (i + 1 + j)) (E (i + 1 + (j + 1))) (hE _) (hE _) (hE _)
      have t : 0 < dot N (cross (E (i + 1 + j)) (E (i + 1 + (j + 1)))) := ht (i + 1 + j)
      have p1 := mul_nonneg (neg_nonneg.2 hle) (le_of_lt (neg_pos.2 (hD _ h2 (by omega))))
      have p2 := mul_pos t (hU i hi)
      rw [anti (E i)] at r
      by_contra hc
      push Not at hc
      have p3 := mul_nonneg hc (le_of_lt (neg_pos.2 (hD (i + 1 + j) (by omega) h1)))
      linarith
    · have e : E (i + 1 + (j + 1)) = E (i + 1 + (j + 1) - n) := by
        conv_lhs => rw [show i + 1 + (j + 1) = i + 1 + (j + 1) - n + n by omega, hEper]
      rw [e, anti (E (i + 1 + (j + 1) - n)) (E i)]
      have := fwd (i + 1 + (j + 1) - n) i (by omega) hi
      linarith
  · have hsum := cross_sum N (E i) V (i + 1) (n - 1)
    rw [show (∑ j ∈ Finset.range (n - 1), dot N (cross (E i) (E (i + 1 + j)))) = _ from hsum, show i + 1 + (n - 1) = i + n by omega, hper]
    show dot N (cross (sub (V (i + 1)) (V i)) (sub (V i) (V (i + 1)))) = 0
    simp only [dot, cross, sub]; ring

theorem cyc_period (vs : List (V3 K)) (i : Nat) : cyc vs (i + vs.length) = cyc vs i := by
  unfold cyc
  rw [Nat.add_mod_right]

theorem cyc_mem (vs : List (V3 K)) (h : 0 < vs.length) (i : Nat) : cyc vs i ∈ vs := by
  unfold cyc
  rw [List.getD_eq_getElem _ _ (Nat.mod_lt _ h)]
  exact List.getElem_mem _

/-- Two corners are the same number of the polygon, or the second is found some steps after the first. -/
theorem steps_after (n i j : Nat) (hn : 0 < n) (h : j % n ≠ i % n) : ∃ k, 0 < k ∧ k < n ∧ (i + k) % n = j % n := by
  have hi := Nat.mod_lt i hn
  have hj := Nat.mod_lt j hn
  rcases lt_or_gt_of_ne h with h | h
  · refine ⟨j % n + n - i % n, by omega, by omega, ?_⟩
    rw [Nat.add_mod, Nat.mod_eq_of_lt (a := j % n + n - i % n) (by omega), show i % n + (j % n + n - i % n) = j % n + n by omega, Nat.add_mod_right, Nat.mod_mod]
  · refine ⟨j % n - i % n, by omega, by omega, ?_⟩
    rw [Nat.add_mod, Nat.mod_eq_of_lt (a := j % n - i % n) (by omega), show i % n + (j % n - i % n) = j % n by omega, Nat.mod_mod]

theorem cyc_congr (vs : List (V3 K)) {i j : Nat} (h : i % vs.length = j % vs.length) : cyc vs i = cyc vs j := by
  unfold cyc
  rw [h]

/-- A polygon that turns to the same side everywhere, and goes up once and down once in some direction, is strictly convex. -/
theorem convex_of_once (vs : List (V3 K)) (h3 : 3 ≤ vs.length) (hl : LocallyConvex vs) (hu : UpAndDown vs) : StrictlyConvex vs := by
  obtain ⟨N, hN, hturn⟩ := hl
  obtain ⟨d, m, p, hp, hup, hdown⟩ := hu
  refine ⟨N, hN, fun i j hji hji1 => ?_⟩
  have hn : 0 < vs.length := by omega
  have hplane : ∀ i j, dot N (sub (cyc vs i) (cyc vs j)) = 0 := fun i j => hN.2 _ (cyc_mem vs hn _) _ (cyc_mem vs hn _)
  -- number `i` in the polygon that begins at `m`
  obtain ⟨a, ha, hai⟩ : ∃ a, a < vs.length ∧ (m + a) % vs.length = i % vs.length := by
    by_cases e : i % vs.length = m % vs.length
    · exact ⟨0, hn, by rw [e]; rfl⟩
    · obtain ⟨k, -, hk, e⟩ := steps_after vs.length m i hn e
      exact ⟨k, hk, e⟩
  obtain ⟨k, hk0, hk, hkj⟩ := steps_after vs.length (m + a + 1) j hn (by
    rw [show (m + a + 1) % vs.length = (i + 1) % vs.length by rw [Nat.add_mod, hai, ← Nat.add_mod]]
    exact hji1)
  have hkn : k + 1 < vs.length := by
    rcases Nat.lt_or_ge (k + 1) vs.length with h | h
    · exact h
    · exfalso
      apply hji
      rw [← hkj, show m + a + 1 + k = m + a + vs.length by omega, Nat.add_mod_right, hai]
  rw [← cyc_congr vs hai, ← cyc_congr vs (show (m + a + 1) % vs.length = (i + 1) % vs.length by rw [Nat.add_mod, hai, ← Nat.add_mod]), ← cyc_congr vs hkj]
  have hper : ∀ x i, cyc vs (x + (i + vs.length)) = cyc vs (x + i) := fun x i => by rw [← Nat.add_assoc, cyc_period]
  rcases lt_or_ge a p with h | h
  · have := left_of_rising N d (fun i => cyc vs (m + i)) vs.length p hp (hper m) (fun i j => hplane _ _) (fun i => hturn (m + i)) hup hdown a h k hk0 hkn
    simpa only [Nat.add_assoc] using this
  · have neg : ∀ u : V3 K, dot (sub V3.zero d) u = - dot d u := fun u => by simp only [dot, sub, V3.zero]; ring
    have := left_of_rising N (sub V3.zero d) (fun i => cyc vs (m + p + i)) vs.length (vs.length - p) (by omega) (hper (m + p)) (fun i j => hplane _ _)
      (fun i => hturn (m + p + i)) ?_ ?_ (a - p) (by omega) k hk0 hkn
    · rw [show m + p + (a - p) = m + a by omega, show m + p + (a - p + 1) = m + a + 1 by omega, show m + p + (a - p + 1 + k) = m + a + 1 + k by omega] at this
      exact this
    · intro b hb
      have := hdown (p + b) (by omega) (by omega)
      rw [neg, neg]
      rw [show m + (p + b) + 1 = m + p + (b + 1) by omega, ← Nat.add_assoc m p b] at this
      linarith
    · intro b hb hpb
      have := hup (b + p - vs.length) (by omega)
      rw [neg, neg]
      rw [← cyc_period vs (m + (b + p - vs.length)), ← cyc_period vs (m + (b + p - vs.length) + 1),
        show m + (b + p - vs.length) + vs.length = m + p + b by omega, show m + (b + p - vs.length) + 1 + vs.length = m + p + (b + 1) by omega] at this
      linarith

/-- Small enough a multiple of `g` does not change the sign of `f`. -/
theorem small_enough (f g : Nat → K) : ∀ n, ∃ ε : K, 0 < ε ∧ ∀ j < n, (0 < f j → 0 < f j + ε * g j) ∧ (f j < 0 → f j + ε * g j < 0)
  | 0 => ⟨1, one_pos, fun _ h => absurd h (Nat.not_lt_zero _)⟩
  | n + 1 => by
    obtain ⟨ε, he, h⟩ := small_enough f g n
    -- a bound for the last one
    obtain ⟨δ, hd, hδ⟩ : ∃ δ : K, 0 < δ ∧ ∀ t, 0 < t → t ≤ δ → (0 < f n → 0 < f n + t * g n) ∧ (f n < 0 → f n + t * g n < 0) := by
      by_cases h0 : f n = 0
      · exact ⟨1, one_pos, fun t _ _ => ⟨fun h => absurd h (by simp [h0]), fun h => absurd h (by simp [h0])⟩⟩
      · have hp : 0 < |f n| / (2 * (|g n| + 1)) := by have := abs_pos.2 h0; have := abs_nonneg (g n); positivity
        refine ⟨_, hp, fun t ht0 ht => ?_⟩
        have hb : |t * g n| < |f n| := by
          have hg := abs_nonneg (g n)
          rw [abs_mul, abs_of_pos ht0]
          have h1 : t * |g n| ≤ |f n| / (2 * (|g n| + 1)) * (|g n| + 1) := by
            have := mul_le_mul ht (by linarith : |g n| ≤ |g n| + 1) hg (le_of_lt hp)
            exact this
          have h2 : |f n| / (2 * (|g n| + 1)) * (|g n| + 1) = |f n| / 2 := by field_simp
          have := abs_pos.2 h0
          linarith
        have := abs_lt.1 hb
        constructor
        · intro h
          rw [abs_of_pos h] at this
          linarith [this.1]
        · intro h
          rw [abs_of_neg h] at this
          linarith [this.2]
    -- the bounds hold for everything smaller
    have shrink : ∀ x y t : K, 0 < t → t ≤ ε → ((0 < x → 0 < x + ε * y) ∧ (x < 0 → x + ε * y < 0)) → (0 < x → 0 < x + t * y) ∧ (x < 0 → x + t * y < 0) := by
      intro x y t ht hte ⟨h1, h2⟩
      constructor
      · intro hx
        rcases le_or_gt 0 y with hy | hy
        · have := mul_nonneg (le_of_lt ht) hy; linarith
        · have := mul_le_mul_of_nonpos_right hte (le_of_lt hy); linarith [h1 hx]
      · intro hx
        rcases le_or_gt y 0 with hy | hy
        · have := mul_nonpos_of_nonneg_of_nonpos (le_of_lt ht) hy; linarith
        · have := mul_le_mul_of_nonneg_right hte (le_of_lt hy); linarith [h2 hx]
    refine ⟨min ε δ, lt_min he hd, fun j hj => ?_⟩
    rcases Nat.lt_succ_iff_lt_or_eq.1 hj with hj | rfl
    · exact shrink _ _ _ (lt_min he hd) (min_le_left _ _) (h j hj)
    · exact hδ _ (lt_min he hd) (min_le_right _ _)

/-- A strictly convex polygon goes up once and down once in some direction (almost square to its first edge). -/
theorem once_of_convex (vs : List (V3 K)) (h3 : 3 ≤ vs.length) (hc : StrictlyConvex vs) : UpAndDown vs := by
  obtain ⟨N, hN, hleft⟩ := hc
  set n := vs.length with hndef
  have hn : 0 < n := by omega
  set V : Nat → V3 K := fun i => cyc vs i with hV
  have hplane : ∀ i j, dot N (sub (V i) (V j)) = 0 := fun i j => hN.2 _ (cyc_mem vs hn _) _ (cyc_mem vs hn _)
  have hVn : V n = V 0 := by
    show cyc vs n = cyc vs 0
    apply cyc_congr
    rw [← hndef, Nat.mod_self, Nat.zero_mod]
  have left : ∀ i < n, ∀ j ≤ n, j % n ≠ i → j % n ≠ (i + 1) % n → Left N (V i) (V (i + 1)) (V j) := fun i hi j hj h1 h2 =>
    hleft i j (by rw [Nat.mod_eq_of_lt hi]; exact h1) h2
  set E : Nat → V3 K := fun i => sub (V (i + 1)) (V i) with hEd
  set f : Nat → K := fun j => dot N (cross (E 0) (E j)) with hf
  set g : Nat → K := fun j => dot (E 0) (E j) with hg
  set h : Nat → K := fun j => dot N (cross (E 0) (sub (V j) (V 0))) with hh
  have hE : ∀ i, dot N (E i) = 0 := fun i => hplane _ _
  have fh : ∀ j, f j = h (j + 1) - h j := fun j => by
    show dot N (cross (E 0) (sub (V (j + 1)) (V j))) = dot N (cross (E 0) (sub (V (j + 1)) (V 0))) - dot N (cross (E 0) (sub (V j) (V 0)))
    simp only [dot, cross, sub]; ring
  have h1 : h 1 = 0 := by
    show dot N (cross (sub (V 1) (V 0)) (sub (V 1) (V 0))) = 0
    simp only [dot, cross, sub]; ring
  have hn0 : h n = 0 := by
    show dot N (cross (E 0) (sub (V n) (V 0))) = 0
    rw [hVn]
    simp only [dot, cross, sub]; ring
  have hpos : ∀ j, 2 ≤ j → j < n → 0 < h j := fun j hj hjn => by
    have := left 0 hn j (by omega) (by rw [Nat.mod_eq_of_lt hjn]; omega) (by rw [Nat.mod_eq_of_lt hjn, Nat.mod_eq_of_lt (by omega)]; omega)
    exact this
  have g0 : 0 < g 0 := by
    have hp := hpos 2 (le_refl _) (by omega)
    show 0 < dot (E 0) (E 0)
    have hp' : 0 < dot N (cross (E 0) (sub (V 2) (V 0))) := hp
    generalize E 0 = e at hp'
    by_contra hcon
    push Not at hcon
    simp only [dot] at hcon
    have sx := mul_self_nonneg e.x
    have sy := mul_self_nonneg e.y
    have sz := mul_self_nonneg e.z
    have ex : e.x = 0 := mul_self_eq_zero.1 (by linarith)
    have ey : e.y = 0 := mul_self_eq_zero.1 (by linarith)
    have ez : e.z = 0 := mul_self_eq_zero.1 (by linarith)
    simp [dot, cross, ex, ey, ez] at hp'
  have f1 : 0 < f 1 := by rw [fh, h1]; have := hpos 2 (le_refl _) (by omega); linarith
  have flast : f (n - 1) < 0 := by
    rw [fh, show n - 1 + 1 = n by omega, hn0]
    have := hpos (n - 1) (by omega) (by omega)
    linarith
  have step : ∀ j, 1 ≤ j → j + 1 < n → f j ≤ 0 → f (j + 1) < 0 := by
    intro j hj hjn hle
    by_contra hcon
    push Not at hcon
    rcases Nat.lt_or_ge (j + 2) n with hlt | hge
    · have hw := hpos (j + 1) (by omega) hjn
      have l1 := left j (by omega) 0 (by omega) (by rw [Nat.zero_mod]; omega) (by rw [Nat.zero_mod, Nat.mod_eq_of_lt hjn]; omega)
      have l2 := left (j + 1) hjn 0 (by omega) (by rw [Nat.zero_mod]; omega) (by rw [Nat.zero_mod, Nat.mod_eq_of_lt hlt]; omega)
      have l3 := left j (by omega) (j + 2) (by omega) (by rw [Nat.mod_eq_of_lt hlt]; omega) (by rw [Nat.mod_eq_of_lt hlt, Nat.mod_eq_of_lt hjn]; omega)
      have b1 : 0 < dot N (cross (E j) (sub (V 0) (V (j + 1)))) := by
        have : dot N (cross (E j) (sub (V 0) (V (j + 1)))) = dot N (cross (sub (V (j + 1)) (V j)) (sub (V 0) (V j))) := by
          show dot N (cross (sub (V (j + 1)) (V j)) (sub (V 0) (V (j + 1)))) = _
          simp only [dot, cross, sub]; ring
        rw [this]; exact l1
      have b2 : 0 < dot N (cross (E (j + 1)) (sub (V 0) (V (j + 1)))) := l2
      have b3 : 0 < dot N (cross (E j) (E (j + 1))) := by
        have : dot N (cross (E j) (E (j + 1))) = dot N (cross (sub (V (j + 1)) (V j)) (sub (V (j + 2)) (V j))) := by
          show dot N (cross (sub (V (j + 1)) (V j)) (sub (V (j + 2)) (V (j + 1)))) = _
          simp only [dot, cross, sub]; ring
        rw [this]; exact l3
      -- heights above the first edge
      have r := plane_relation N (cross N (E 0)) (E j) (E (j + 1)) (sub (V 0) (V (j + 1))) (hE _) (hE _) (hplane _ _)
      have e1 : ∀ u, dot (cross N (E 0)) u = dot N (cross (E 0) u) := fun u => by simp only [dot, cross]; ring
      rw [e1, e1, e1] at r
      have e2 : dot N (cross (E 0) (sub (V 0) (V (j + 1)))) = - h (j + 1) := by
        show _ = - dot N (cross (E 0) (sub (V (j + 1)) (V 0)))
        simp only [dot, cross, sub]; ring
      have e3 : dot N (cross (sub (V 0) (V (j + 1))) (E j)) = - dot N (cross (E j) (sub (V 0) (V (j + 1)))) := by
        simp only [dot, cross]; ring
      rw [e2, e3] at r
      have q1 := mul_pos b3 hw
      have q2 : 0 ≤ dot N (cross (E (j + 1)) (sub (V 0) (V (j + 1)))) * -(dot N (cross (E 0) (E j))) := mul_nonneg (le_of_lt b2) (neg_nonneg.2 hle)
      have q3 : 0 ≤ dot N (cross (E j) (sub (V 0) (V (j + 1)))) * dot N (cross (E 0) (E (j + 1))) := mul_nonneg (le_of_lt b1) hcon
      linarith
    · have : j + 1 = n - 1 := by omega
      rw [this] at hcon
      linarith
  have back : ∀ j, 1 ≤ j → j < n → f j = 0 → g j < 0 := by
    intro j hj hjn h0
    have hj2 : 2 ≤ j := by
      rcases Nat.lt_or_ge 1 j with h | h
      · exact h
      · rw [show j = 1 by omega] at h0; linarith
    have hjl : j + 1 < n := by
      rcases Nat.lt_or_ge (j + 1) n with h | h
      · exact h
      · rw [show j = n - 1 by omega] at h0; linarith
    have l := left j hjn 0 (by omega) (by rw [Nat.zero_mod]; omega) (by rw [Nat.zero_mod, Nat.mod_eq_of_lt hjl]; omega)
    have l' : 0 < dot N (cross (E j) (sub (V 0) (V j))) := l
    have hw := hpos j hj2 hjn
    have hw' : dot N (cross (E 0) (sub (V 0) (V j))) < 0 := by
      have : dot N (cross (E 0) (sub (V 0) (V j))) = - h j := by
        show _ = - dot N (cross (E 0) (sub (V j) (V 0)))
        simp only [dot, cross, sub]; ring
      rw [this]; linarith
    have h0' : dot N (cross (E 0) (E j)) = 0 := h0
    have hE0 := hE 0
    show dot (E 0) (E j) < 0
    have g0' : 0 < dot (E 0) (E 0) := g0
    generalize E 0 = a at *
    generalize E j = b at *
    generalize sub (V 0) (V j) = w at *
    have id : dot a a * dot N (cross b w) = dot a b * dot N (cross a w) - dot a w * dot N (cross a b) + dot a (cross b w) * dot N a := by
      simp only [dot, cross]; ring
    rw [h0', hE0] at id
    have := mul_pos g0' l'
    by_contra hcon
    push Not at hcon
    have := mul_nonneg hcon (le_of_lt (neg_pos.2 hw'))
    linarith
  obtain ⟨ε, he, hε⟩ := small_enough f g n
  have hex : ∃ j, 1 ≤ j ∧ f j ≤ 0 := ⟨n - 1, by omega, le_of_lt flast⟩
  classical
  have hpspec := Nat.find_spec hex
  have hpmin := fun j => @Nat.find_min _ _ hex j
  have hple : Nat.find hex ≤ n - 1 := Nat.find_min' hex ⟨by omega, le_of_lt flast⟩
  generalize Nat.find hex = p at *
  have dE : ∀ j, dot (add (cross N (E 0)) (smul ε (E 0))) (V (j + 1)) - dot (add (cross N (E 0)) (smul ε (E 0))) (V j) = f j + ε * g j := fun j => by
    show _ = dot N (cross (E 0) (sub (V (j + 1)) (V j))) + ε * dot (E 0) (sub (V (j + 1)) (V j))
    simp only [dot, cross, sub, add, smul]; ring
  have f0 : f 0 = 0 := by
    show dot N (cross (E 0) (E 0)) = 0
    simp only [dot, cross]; ring
  have after : ∀ l, p + l + 1 < n → f (p + l + 1) < 0 := by
    intro l
    induction l with
    | zero => intro hl; exact step p hpspec.1 hl hpspec.2
    | succ l ih => intro hl; exact step _ (by omega) hl (le_of_lt (ih (by omega)))
  refine ⟨add (cross N (E 0)) (smul ε (E 0)), 0, p, by omega, fun i hi => ?_, fun i hi hpi => ?_⟩
  · have := dE i
    have hv : 0 < f i + ε * g i := by
      rcases Nat.eq_zero_or_pos i with rfl | h0
      · rw [f0]; have := mul_pos he g0; linarith
      · refine (hε i (by omega)).1 ?_
        by_contra hcon
        push Not at hcon
        exact hpmin i hi ⟨h0, hcon⟩
    rw [Nat.zero_add]
    show dot _ (V i) < dot _ (V (i + 1))
    linarith
  · have := dE i
    have hv : f i + ε * g i < 0 := by
      by_cases h0 : f i = 0
      · have hb := back i (by omega) hi h0
        rw [h0]
        have := mul_pos he (neg_pos.2 hb)
        linarith
      · refine (hε i hi).2 ?_
        rcases Nat.lt_or_ge p i with hlt | hge
        · have := after (i - p - 1) (by omega)
          rwa [show p + (i - p - 1) + 1 = i by omega] at this
        · have : i = p := by omega
          subst this
          exact lt_of_le_of_ne hpspec.2 h0
    rw [Nat.zero_add]
    show dot _ (V (i + 1)) < dot _ (V i)
    linarith

/-- A polygon of at least three corners is strictly convex exactly if it turns to the same side everywhere and goes up and down only once in some
direction. -/
theorem convex_iff_once (vs : List (V3 K)) (h3 : 3 ≤ vs.length) : StrictlyConvex vs ↔ LocallyConvex vs ∧ UpAndDown vs := by
  refine ⟨fun h => ⟨?_, once_of_convex vs h3 h⟩, fun h => convex_of_once vs h3 h.1 h.2⟩
  obtain ⟨N, hN, hleft⟩ := h
  have ne : ∀ i a b, a < vs.length → b < vs.length → a ≠ b → (i + a) % vs.length ≠ (i + b) % vs.length := by
    intro i a b ha hb hab hh
    have := Nat.ModEq.add_left_cancel' i (show i + a ≡ i + b [MOD vs.length] from hh)
    rw [Nat.ModEq, Nat.mod_eq_of_lt ha, Nat.mod_eq_of_lt hb] at this
    exact hab this
  exact ⟨N, hN, fun i => hleft i (i + 2) (ne i 2 0 (by omega) (by omega) (by omega)) (ne i 2 1 (by omega) (by omega) (by omega))⟩

/-- C09: exactly which planar polygons are judged rightly. A polygon of at least four corners is strictly convex if and only if `is_convex` accepts it and it
goes up and down only once in some direction; those that are accepted wrongly are exactly the ones that go up and down several times in every direction. -/
theorem C09_exact (f : Face) (co vs : List (V3 K)) (hr : Resolves f co vs) (hco : f.degree ≤ co.length) (h3 : 3 < f.degree) (hpl : ∃ N, PlanarWith N vs) :
    (StrictlyConvex vs ↔ Face.isConvex f co = .ok true ∧ UpAndDown vs) ∧
    (Face.isConvex f co = .ok true ∧ ¬ StrictlyConvex vs ↔ Face.isConvex f co = .ok true ∧ ¬ UpAndDown vs) := by
  have hl : 3 ≤ vs.length := by
    have := hr.length
    unfold Face.degree at h3
    omega
  have key : StrictlyConvex vs ↔ Face.isConvex f co = .ok true ∧ UpAndDown vs := by
    rw [convex_iff_once vs hl, (C09_decides_turning_partial f co vs hr hco h3 hpl).1]
  refine ⟨key, ?_⟩
  rw [key]
  constructor
  · rintro ⟨h, hn⟩
    exact ⟨h, fun hu => hn ⟨h, hu⟩⟩
  · rintro ⟨h, hn⟩
    exact ⟨h, fun hu => hn hu.2⟩

/-- C09: in particular `is_convex` decides convexity of the polygons of at least four corners that go up and down once in some direction. -/
theorem C09_once (f : Face) (co vs : List (V3 K)) (hr : Resolves f co vs) (hco : f.degree ≤ co.length) (h3 : 3 < f.degree) (hpl : ∃ N, PlanarWith N vs)
    (hu : UpAndDown vs) : (Face.isConvex f co = .ok true ↔ StrictlyConvex vs) ∧ (Face.isConvex f co = .ok false ↔ ¬ StrictlyConvex vs) := by
  have k := (C09_exact f co vs hr hco h3 hpl).1
  have d := C09_decides_turning_partial f co vs hr hco h3 hpl
  have k1 : Face.isConvex f co = .ok true ↔ StrictlyConvex vs := by rw [k]; exact ⟨fun h => ⟨h, hu⟩, fun h => h.1⟩
  refine ⟨k1, ?_⟩
  rw [← k1, d.2, d.1]

/-- C09: a hexagon that goes up and down once, a dented pentagon too, and a pentagram, which does not. -/
def upHexagon : List (V3 ℚ) := [⟨1, 0, 5⟩, ⟨3, 1, 5⟩, ⟨4, 3, 5⟩, ⟨2, 5, 5⟩, ⟨0, 4, 5⟩, ⟨-1, 2, 5⟩]

example : UpAndDown upHexagon := ⟨⟨0, 1, 0⟩, 0, 3, by decide, by decide +kernel, by decide +kernel⟩
example : UpAndDown ([⟨0, 0, 0⟩, ⟨4, 1, 0⟩, ⟨1, 2, 0⟩, ⟨4, 3, 0⟩, ⟨-1, 2, 0⟩] : List (V3 ℚ)) := ⟨⟨0, 1, 0⟩, 0, 3, by decide, by decide +kernel, by decide +kernel⟩
example : Resolves ⟨[0, 1, 2, 3, 4, 5]⟩ upHexagon upHexagon ∧ Face.isConvex ⟨[0, 1, 2, 3, 4, 5]⟩ upHexagon = .ok true :=
  ⟨by unfold Resolves upHexagon; simp, by decide +kernel⟩
example : ∃ N, PlanarWith N upHexagon := ⟨⟨0, 0, 1⟩, by decide +kernel, by decide +kernel⟩
example : ¬ UpAndDown pentagram := by
  have h := C09_refuted
  have hp : ∃ N, PlanarWith N pentagram := ⟨⟨0, 0, 1⟩, by decide +kernel, by decide +kernel⟩
  exact ((C09_exact ⟨[0, 1, 2, 3, 4]⟩ pentagram pentagram (by unfold Resolves pentagram; simp) (by decide) (by decide) hp).2.1 ⟨h.1, h.2.1⟩).2

end
end City.Props
