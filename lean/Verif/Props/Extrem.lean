import Verif.Model.Measure
import Mathlib.Tactic.Ring
import Mathlib.Tactic.Linarith
import Mathlib.Tactic.LinearCombination
import Mathlib.Tactic.FieldSimp
/-!
C62: collinear points.
-/
set_option linter.unusedSectionVars false
namespace City.Props
open City
variable {K : Type} [Field K] [LinearOrder K] [IsStrictOrderedRing K]

/-- All points are on the line through `o` with direction `d`. -/
def OnLine (o d : V2 K) (ps : List (V2 K)) : Prop := ∀ p ∈ ps, ∃ t, p = ⟨o.x + t * d.x, o.y + t * d.y⟩

/-- The points are on one line. -/
def CollinearPoints (ps : List (V2 K)) : Prop := ∃ o d : V2 K, d ≠ ⟨0, 0⟩ ∧ OnLine o d ps

/-- `p` is on the segment between `a` and `b`. -/
def Between (a b p : V2 K) : Prop := ∃ t, 0 ≤ t ∧ t ≤ 1 ∧ p = ⟨a.x + t * (b.x - a.x), a.y + t * (b.y - a.y)⟩

/-- The full claim about `check_collinearity`. -/
def C62_full : Prop := ∀ (ps : List (V2 ℚ)) (b : Bool), checkCollinearity ps = .ok b → (b = true ↔ CollinearPoints ps)

theorem ratioAbove_iff {a b : K} (hb : 0 ≤ b) : ratioAbove a b = true ↔ b < a := by
  unfold ratioAbove
  split
  · rename_i h; rw [h, decide_eq_true_iff]
  · rename_i h
    have : 0 < b := lt_of_le_of_ne hb (Ne.symm h)
    rw [decide_eq_true_iff, lt_div_iff₀ this, one_mul]

/-- C62 (partial): with fewer than three points `check_collinearity` throws; otherwise it answers exactly whether the
first three points are on a line; so the answer "false" is always right, and so is every answer about three points. -/
theorem C62_check_partial (ps : List (V2 K)) :
    (ps.length < 3 → checkCollinearity ps = .thrown .outOfRange) ∧
    (3 ≤ ps.length → ∃ b, checkCollinearity ps = .ok b ∧ (b = true ↔ CollinearPoints (ps.take 3)) ∧ (CollinearPoints ps → b = true)) := by
  constructor
  · intro h
    match ps, h with
    | [], _ => rfl
    | [_], _ => rfl
    | [_, _], _ => rfl
    | _ :: _ :: _ :: _, h => simp at h; omega
  · intro h
    match ps, h with
    | [], h => simp at h
    | [_], h => simp at h
    | [_, _], h => simp at h
    | p :: q :: r :: t, _ =>
      have col : CollinearPoints [p, q, r] ↔ triArea p q r = 0 := by
        constructor
        · rintro ⟨o, d, _, hl⟩
          obtain ⟨a, ha⟩ := hl p (by simp)
          obtain ⟨b, hb⟩ := hl q (by simp)
          obtain ⟨c, hc⟩ := hl r (by simp)
          subst ha hb hc
          simp only [triArea]; ring
        · intro h0
          have h1 : (q.x - p.x) * (r.y - p.y) = (r.x - p.x) * (q.y - p.y) := by
            unfold triArea at h0
            have := (div_eq_zero_iff.1 h0).resolve_right two_ne_zero
            linarith
          by_cases hpq : p = q
          · by_cases hpr : p = r
            · refine ⟨p, ⟨1, 0⟩, by simp, ?_⟩
              intro x hx
              refine ⟨0, ?_⟩
              simp only [List.mem_cons, List.not_mem_nil, or_false] at hx
              rcases hx with rfl | rfl | rfl
              · simp
              · rw [hpq]; simp
              · rw [hpr]; simp
            · refine ⟨p, ⟨r.x - p.x, r.y - p.y⟩, ?_, ?_⟩
              · intro h2
                apply hpr
                have hx := congrArg V2.x h2
                have hy := congrArg V2.y h2
                ext
                · simp only at hx; linarith
                · simp only at hy; linarith
              · intro x hx
                simp only [List.mem_cons, List.not_mem_nil, or_false] at hx
                rcases hx with rfl | rfl | rfl
                · exact ⟨0, by simp⟩
                · exact ⟨0, by rw [← hpq]; simp⟩
                · exact ⟨1, by ext <;> simp⟩
          · have hne : q.x - p.x ≠ 0 ∨ q.y - p.y ≠ 0 := by
              by_contra hc
              push Not at hc
              apply hpq
              ext
              · linarith [hc.1]
              · linarith [hc.2]
            refine ⟨p, ⟨q.x - p.x, q.y - p.y⟩, ?_, ?_⟩
            · intro h2
              rcases hne with hne | hne
              · exact hne (congrArg V2.x h2)
              · exact hne (congrArg V2.y h2)
            · intro x hx
              simp only [List.mem_cons, List.not_mem_nil, or_false] at hx
              rcases hx with rfl | rfl | rfl
              · exact ⟨0, by simp⟩
              · exact ⟨1, by ext <;> simp⟩
              · rcases hne with hne | hne
                · refine ⟨(x.x - p.x) / (q.x - p.x), ?_⟩
                  ext
                  · simp only; field_simp; ring
                  · simp only; field_simp; linear_combination h1
                · refine ⟨(x.y - p.y) / (q.y - p.y), ?_⟩
                  ext
                  · simp only; field_simp; linear_combination -h1
                  · simp only; field_simp; ring
      refine ⟨decide (triArea p q r = 0), rfl, ?_, ?_⟩
      · rw [decide_eq_true_iff]
        exact col.symm
      · rintro ⟨o, d, hd, hl⟩
        rw [decide_eq_true_iff]
        refine col.1 ⟨o, d, hd, fun x hx => hl x ?_⟩
        simp only [List.mem_cons, List.not_mem_nil, or_false] at hx ⊢
        rcases hx with rfl | rfl | rfl <;> simp

/-- C62 is false for `check_collinearity`: the fourth point is not looked at. -/
theorem C62_refuted : ¬ C62_full := by
  intro h
  obtain ⟨o, d, hd, hl⟩ := (h [⟨0, 0⟩, ⟨1, 0⟩, ⟨2, 0⟩, ⟨0, 1⟩] true (by decide +kernel)).1 rfl
  obtain ⟨a, ha⟩ := hl ⟨0, 0⟩ (by simp)
  obtain ⟨b, hb⟩ := hl ⟨1, 0⟩ (by simp)
  obtain ⟨c, hc⟩ := hl ⟨0, 1⟩ (by simp)
  have a1 := congrArg V2.x ha
  have a2 := congrArg V2.y ha
  have b1 := congrArg V2.x hb
  have b2 := congrArg V2.y hb
  have c1 := congrArg V2.x hc
  have c2 := congrArg V2.y hc
  simp only at a1 a2 b1 b2 c1 c2
  have e1 : (b - a) * d.x = 1 := by linarith
  have e2 : (b - a) * d.y = 0 := by linarith
  have e3 : (c - a) * d.y = 1 := by linarith
  have hba : b - a ≠ 0 := by intro h0; rw [h0] at e1; simp at e1
  have : d.y = 0 := (mul_eq_zero.1 e2).resolve_left hba
  rw [this] at e3; simp at e3

/-- A point of the line. -/
def onLine (o d : V2 K) (t : K) : V2 K := ⟨o.x + t * d.x, o.y + t * d.y⟩

theorem sqDist_line (o d : V2 K) (s t : K) : sqDist (onLine o d s) (onLine o d t) = (s - t) ^ 2 * (d.x ^ 2 + d.y ^ 2) := by
  simp only [sqDist, onLine]; ring

theorem sqDist_nonneg (p q : V2 K) : 0 ≤ sqDist p q := add_nonneg (sq_nonneg _) (sq_nonneg _)

/-- `t` is between `a` and `b`. -/
def Mid (a b t : K) : Prop := min a b ≤ t ∧ t ≤ max a b

theorem extremStep_line {o d : V2 K} (hd : d ≠ ⟨0, 0⟩) (a b c : K) :
    ∃ a' b', extremStep (onLine o d a, onLine o d b) (onLine o d c) = (onLine o d a', onLine o d b') ∧
      (a' = a ∨ a' = c) ∧ (b' = b ∨ b' = c) ∧ Mid a' b' a ∧ Mid a' b' b ∧ Mid a' b' c := by
  have hD : 0 < d.x ^ 2 + d.y ^ 2 := by
    rcases lt_or_eq_of_le (add_nonneg (sq_nonneg d.x) (sq_nonneg d.y)) with h | h
    · exact h
    · exfalso; apply hd
      have hx : d.x ^ 2 = 0 := by nlinarith [sq_nonneg d.x, sq_nonneg d.y]
      have hy : d.y ^ 2 = 0 := by nlinarith [sq_nonneg d.x, sq_nonneg d.y]
      ext
      · exact pow_eq_zero_iff (two_ne_zero) |>.1 hx
      · exact pow_eq_zero_iff (two_ne_zero) |>.1 hy
  have cmp : ∀ s t u v : K, ratioAbove (sqDist (onLine o d s) (onLine o d t)) (sqDist (onLine o d u) (onLine o d v)) = true ↔ |u - v| < |s - t| := by
    intro s t u v
    rw [ratioAbove_iff (sqDist_nonneg _ _), sqDist_line, sqDist_line, mul_lt_mul_iff_left₀ hD, sq_lt_sq]
  have mid : ∀ {x y z : K}, Mid x y z ↔ (x ≤ z ∧ z ≤ y) ∨ (y ≤ z ∧ z ≤ x) := by
    intro x y z
    unfold Mid
    rcases le_total x y with h | h
    · rw [min_eq_left h, max_eq_right h]
      constructor
      · exact Or.inl
      · rintro (h1 | h1)
        · exact h1
        · exact ⟨h.trans h1.1, h1.2.trans h⟩
    · rw [min_eq_right h, max_eq_left h]
      constructor
      · exact Or.inr
      · rintro (h1 | h1)
        · exact ⟨h.trans h1.1, h1.2.trans h⟩
        · exact h1
  unfold extremStep
  simp only [Bool.or_eq_true, cmp]
  split
  · rename_i h1
    split
    · rename_i h2
      refine ⟨c, b, rfl, Or.inr rfl, Or.inl rfl, ?_, ?_, ?_⟩ <;> rw [mid]
      · rcases abs_cases (a - b) with ⟨e1, f1⟩ | ⟨e1, f1⟩ <;> rcases abs_cases (a - c) with ⟨e2, f2⟩ | ⟨e2, f2⟩ <;>
          rcases abs_cases (b - c) with ⟨e3, f3⟩ | ⟨e3, f3⟩ <;> rw [e1, e2, e3] at h1 <;> rw [e1, e2, e3] at h2 <;>
          rcases h1 with h1 | h1 <;> rcases h2 with h2 | h2 <;> first | (exfalso; linarith) | (left; constructor <;> linarith) | (right; constructor <;> linarith)
      · rcases le_total c b with h | h
        · left; exact ⟨h, le_refl _⟩
        · right; exact ⟨le_refl _, h⟩
      · rcases le_total c b with h | h
        · left; exact ⟨le_refl _, h⟩
        · right; exact ⟨h, le_refl _⟩
    · rename_i h2
      push Not at h2
      refine ⟨a, c, rfl, Or.inl rfl, Or.inr rfl, ?_, ?_, ?_⟩ <;> rw [mid]
      · rcases le_total a c with h | h
        · left; exact ⟨le_refl _, h⟩
        · right; exact ⟨h, le_refl _⟩
      · rcases abs_cases (a - b) with ⟨e1, f1⟩ | ⟨e1, f1⟩ <;> rcases abs_cases (a - c) with ⟨e2, f2⟩ | ⟨e2, f2⟩ <;>
          rcases abs_cases (b - c) with ⟨e3, f3⟩ | ⟨e3, f3⟩ <;> rw [e1, e2, e3] at h1 <;> rw [e1, e2, e3] at h2 <;>
          rcases h1 with h1 | h1 <;> first | (exfalso; linarith [h2.1, h2.2]) | (left; constructor <;> linarith [h2.1, h2.2]) | (right; constructor <;> linarith [h2.1, h2.2])
      · rcases le_total a c with h | h
        · left; exact ⟨h, le_refl _⟩
        · right; exact ⟨le_refl _, h⟩
  · rename_i h1
    push Not at h1
    refine ⟨a, b, rfl, Or.inl rfl, Or.inl rfl, ?_, ?_, ?_⟩ <;> rw [mid]
    · rcases le_total a b with h | h
      · left; exact ⟨le_refl _, h⟩
      · right; exact ⟨h, le_refl _⟩
    · rcases le_total a b with h | h
      · left; exact ⟨h, le_refl _⟩
      · right; exact ⟨le_refl _, h⟩
    · rcases abs_cases (a - b) with ⟨e1, f1⟩ | ⟨e1, f1⟩ <;> rcases abs_cases (a - c) with ⟨e2, f2⟩ | ⟨e2, f2⟩ <;>
          rcases abs_cases (b - c) with ⟨e3, f3⟩ | ⟨e3, f3⟩ <;> rw [e1, e2, e3] at h1 <;>
          first | (exfalso; linarith [h1.1, h1.2]) | (left; constructor <;> linarith [h1.1, h1.2]) | (right; constructor <;> linarith [h1.1, h1.2])

theorem mid_trans {a b a' b' t : K} (ha : Mid a' b' a) (hb : Mid a' b' b) (h : Mid a b t) : Mid a' b' t :=
  ⟨(le_min ha.1 hb.1).trans h.1, h.2.trans (max_le ha.2 hb.2)⟩

theorem extrem_foldl {o d : V2 K} (hd : d ≠ ⟨0, 0⟩) : ∀ (ts seen : List K) (a b : K), a ∈ seen → b ∈ seen → (∀ t ∈ seen, Mid a b t) →
    ∃ a' b', (ts.map (onLine o d)).foldl extremStep (onLine o d a, onLine o d b) = (onLine o d a', onLine o d b') ∧
      a' ∈ seen ++ ts ∧ b' ∈ seen ++ ts ∧ ∀ t ∈ seen ++ ts, Mid a' b' t
  | [], seen, a, b, ha, hb, h => ⟨a, b, rfl, by simpa using ha, by simpa using hb, by simpa using h⟩
  | c :: ts, seen, a, b, ha, hb, h => by
    obtain ⟨a', b', h1, h2, h3, h4, h5, h6⟩ := extremStep_line (o := o) hd a b c
    have hm : ∀ t ∈ seen ++ [c], Mid a' b' t := by
      intro t ht
      rcases List.mem_append.1 ht with ht | ht
      · exact mid_trans h4 h5 (h t ht)
      · rw [List.mem_singleton.1 ht]; exact h6
    have m1 : a' ∈ seen ++ [c] := by rcases h2 with rfl | rfl <;> simp [ha]
    have m2 : b' ∈ seen ++ [c] := by rcases h3 with rfl | rfl <;> simp [hb]
    obtain ⟨x, y, g1, g2, g3, g4⟩ := extrem_foldl hd ts (seen ++ [c]) a' b' m1 m2 hm
    refine ⟨x, y, ?_, by simpa using g2, by simpa using g3, by simpa using g4⟩
    rw [List.map_cons, List.foldl_cons, h1]
    exact g1

/-- C62: for any two or more collinear points `extrem_points` returns two of them between which all of them lie; with fewer than two points it throws. -/
theorem C62_extrem (ps : List (V2 K)) :
    (ps.length < 2 → extremPoints ps = .thrown .outOfRange) ∧
    (2 ≤ ps.length → CollinearPoints ps → ∃ a ∈ ps, ∃ b ∈ ps, extremPoints ps = .ok (a, b) ∧ ∀ p ∈ ps, Between a b p) := by
  constructor
  · intro h
    match ps, h with
    | [], _ => rfl
    | [_], _ => rfl
    | _ :: _ :: _, h => simp at h
  · intro h hc
    obtain ⟨o, d, hd, hl⟩ := hc
    have hex : ∃ ts : List K, ps = ts.map (onLine o d) := by
      clear h
      induction ps with
      | nil => exact ⟨[], rfl⟩
      | cons p ps ih =>
        obtain ⟨ts, hts⟩ := ih fun q hq => hl q (List.mem_cons_of_mem _ hq)
        obtain ⟨t, ht⟩ := hl p List.mem_cons_self
        exact ⟨t :: ts, by rw [hts, ht]; rfl⟩
    obtain ⟨ts, rfl⟩ := hex
    match ts, h with
    | [], h => simp at h
    | [_], h => simp at h
    | a :: b :: ts, _ =>
      obtain ⟨a', b', h1, h2, h3, h4⟩ := extrem_foldl (o := o) hd ts [a, b] a b (by simp) (by simp) (by
        intro t ht
        simp only [List.mem_cons, List.not_mem_nil, or_false] at ht
        rcases ht with rfl | rfl
        · exact ⟨min_le_left _ _, le_max_left _ _⟩
        · exact ⟨min_le_right _ _, le_max_right _ _⟩)
      refine ⟨onLine o d a', List.mem_map_of_mem h2, onLine o d b', List.mem_map_of_mem h3, ?_, ?_⟩
      · exact congrArg Out.ok h1
      · intro p hp
        obtain ⟨t, ht, rfl⟩ := List.mem_map.1 hp
        obtain ⟨m1, m2⟩ := h4 t ht
        by_cases hab : b' - a' = 0
        · have hb : b' = a' := by linarith
          rw [hb, min_self] at m1
          rw [hb, max_self] at m2
          have : t = a' := le_antisymm m2 m1
          refine ⟨0, le_refl _, zero_le_one, ?_⟩
          rw [this]; simp [onLine]
        · refine ⟨(t - a') / (b' - a'), ?_, ?_, ?_⟩
          · rcases le_total a' b' with h | h
            · rw [min_eq_left h] at m1
              exact div_nonneg (by linarith) (by linarith)
            · rw [max_eq_left h] at m2
              exact div_nonneg_of_nonpos (by linarith) (by linarith)
          · rcases lt_or_gt_of_ne hab with h | h
            · rw [min_eq_right (by linarith)] at m1
              rw [div_le_iff_of_neg h]; linarith
            · rw [max_eq_right (by linarith)] at m2
              rw [div_le_iff₀ h]; linarith
          · simp only [onLine]
            ext
            · simp only; field_simp; ring
            · simp only; field_simp; ring

/-- Whatever the points are, `extrem_points` returns two of them. -/
theorem C62_members (ps : List (V2 K)) (a b : V2 K) (h : extremPoints ps = .ok (a, b)) : a ∈ ps ∧ b ∈ ps := by
  have key : ∀ (l : List (V2 K)) (s : V2 K × V2 K), s.1 ∈ ps → s.2 ∈ ps → (∀ c ∈ l, c ∈ ps) → (l.foldl extremStep s).1 ∈ ps ∧ (l.foldl extremStep s).2 ∈ ps := by
    intro l
    induction l with
    | nil => intro s h1 h2 _; exact ⟨h1, h2⟩
    | cons c l ih =>
      intro s h1 h2 h3
      have hc := h3 c List.mem_cons_self
      apply ih
      · unfold extremStep; split
        · split
          · exact hc
          · exact h1
        · exact h1
      · unfold extremStep; split
        · split
          · exact h2
          · exact hc
        · exact h2
      · exact fun x hx => h3 x (List.mem_cons_of_mem _ hx)
  match ps, h with
  | [], h => simp [extremPoints, Out.atOr] at h
  | [_], h => simp [extremPoints, Out.atOr] at h
  | p :: q :: t, h =>
    have h' : Out.ok (t.foldl extremStep (p, q)) = .ok (a, b) := h
    obtain ⟨h1, h2⟩ := key t (p, q) (by simp) (by simp) (fun c hc => by simp [hc])
    cases h'' : t.foldl extremStep (p, q) with
    | mk x y =>
      rw [h''] at h' h1 h2
      cases h'
      exact ⟨h1, h2⟩

/-- Four points on a slanted line, the extremes being in the middle of the list. -/
example : extremPoints [(⟨1, 2⟩ : V2 ℚ), ⟨5, 10⟩, ⟨-1, -2⟩, ⟨3, 6⟩] = .ok (⟨-1, -2⟩, ⟨5, 10⟩) ∧
    CollinearPoints [(⟨1, 2⟩ : V2 ℚ), ⟨5, 10⟩, ⟨-1, -2⟩, ⟨3, 6⟩] := by
  refine ⟨by decide +kernel, ⟨0, 0⟩, ⟨1, 2⟩, by decide +kernel, ?_⟩
  intro p hp
  simp only [List.mem_cons, List.not_mem_nil, or_false] at hp
  rcases hp with rfl | rfl | rfl | rfl
  · exact ⟨1, by decide +kernel⟩
  · exact ⟨5, by decide +kernel⟩
  · exact ⟨-1, by decide +kernel⟩
  · exact ⟨3, by decide +kernel⟩

end City.Props
