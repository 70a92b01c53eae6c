import Verif.Spec.Brick
import Mathlib.Tactic.Linarith
import Mathlib.Tactic.Ring
import Mathlib.Tactic.NormNum
import Mathlib.Data.Rat.Floor
import Mathlib.Algebra.Order.Ring.Rat
/-!
A library which satisfies `Lawful`: axis-parallel rectangles with integer corners. The intersection of two rectangles is a rectangle or
nothing; a difference is up to four rectangles. It shows that the assumptions on CGAL can be met, and is used to run the model
on examples in which CGAL returns the same pieces.
-/
namespace City.Spec
open City

/-- The rectangle as a polygon, counterclockwise from the lower left corner. -/
def rect (b : Box2 ℚ) : Pwh ℚ := ⟨[⟨b.xmin, b.ymin⟩, ⟨b.xmax, b.ymin⟩, ⟨b.xmax, b.ymax⟩, ⟨b.xmin, b.ymax⟩], []⟩

/-- Inside a box. -/
def InRect (b : Box2 ℚ) (p : V2 ℚ) : Prop := b.xmin < p.x ∧ p.x < b.xmax ∧ b.ymin < p.y ∧ p.y < b.ymax

/-- A box with an area. -/
def Fat (b : Box2 ℚ) : Prop := b.xmin < b.xmax ∧ b.ymin < b.ymax

instance (b : Box2 ℚ) : Decidable (Fat b) := inferInstanceAs (Decidable (_ ∧ _))
instance (b : Box2 ℚ) (p : V2 ℚ) : Decidable (InRect b p) := inferInstanceAs (Decidable (_ ∧ _))

/-- The rectangle if it has an area. -/
def rects (b : Box2 ℚ) : List (Pwh ℚ) := if Fat b then [rect b] else []

/-- The intersection of two boxes. -/
def boxMeet (s t : Box2 ℚ) : Box2 ℚ := ⟨max s.xmin t.xmin, max s.ymin t.ymin, min s.xmax t.xmax, min s.ymax t.ymax⟩

/-- The box of a polygon, for polygons that have one. -/
def boxOf (q : Pwh ℚ) : Box2 ℚ := (polyBox q.outer).getD ⟨0, 0, 0, 0⟩

/-- Point location with respect to the box of the vertices. -/
def rectSide (l : Poly ℚ) (p : V2 ℚ) : Side :=
  match polyBox l with
  | none => .unbounded
  | some b =>
    if InRect b p then .bounded
    else if b.xmin ≤ p.x ∧ p.x ≤ b.xmax ∧ b.ymin ≤ p.y ∧ p.y ≤ b.ymax then .boundary else .unbounded

/-- A rectangle without another. -/
def rectMinus (q r : Pwh ℚ) : List (Pwh ℚ) :=
  if Fat (boxMeet (boxOf q) (boxOf r)) then
    rects ⟨(boxOf q).xmin, (boxOf q).ymin, (boxMeet (boxOf q) (boxOf r)).xmin, (boxOf q).ymax⟩ ++
    rects ⟨(boxMeet (boxOf q) (boxOf r)).xmax, (boxOf q).ymin, (boxOf q).xmax, (boxOf q).ymax⟩ ++
    rects ⟨(boxMeet (boxOf q) (boxOf r)).xmin, (boxOf q).ymin, (boxMeet (boxOf q) (boxOf r)).xmax, (boxMeet (boxOf q) (boxOf r)).ymin⟩ ++
    rects ⟨(boxMeet (boxOf q) (boxOf r)).xmin, (boxMeet (boxOf q) (boxOf r)).ymax, (boxMeet (boxOf q) (boxOf r)).xmax, (boxOf q).ymax⟩
  else [q]

/-- The intersection of two rectangles. -/
def rectInter (q r : Pwh ℚ) : List (Pwh ℚ) := rects (boxMeet (boxOf q) (boxOf r))

/-- The library of rectangles. A meet with a rectangle that is covered returns the rectangle itself. -/
def rectCgal : Cgal ℚ where
  PSet := List (Pwh ℚ)
  toDouble := id
  simple := fun _ => true
  side := rectSide
  inter := rectInter
  emptySet := []
  ofPwh := fun q => [q]
  join := fun s q => s.flatMap (fun r => rectMinus r q) ++ [q]
  meet := fun s q => if (s.foldl (fun t r => t.flatMap fun x => rectMinus x r) [q]).isEmpty then [q] else s.flatMap fun r => rectInter r q
  minus := fun s q => s.flatMap fun r => rectMinus r q
  isEmpty := fun s => s.isEmpty
  pieces := id

/-- A number is an integer. -/
def IsInt (x : ℚ) : Prop := ∃ n : ℤ, x = n

/-- A polygon is the rectangle, starting at any of its corners. -/
def IsRect (b : Box2 ℚ) (q : Pwh ℚ) : Prop := q.holes = [] ∧ q.outer ~r (rect b).outer

theorem isRect_rect (b : Box2 ℚ) : IsRect b (rect b) := ⟨rfl, List.IsRotated.refl _⟩

/-- Rectangles with integer corners and an area. -/
def RectOk (q : Pwh ℚ) : Prop := ∃ b : Box2 ℚ, Fat b ∧ IsInt b.xmin ∧ IsInt b.ymin ∧ IsInt b.xmax ∧ IsInt b.ymax ∧ IsRect b q

/-- Points with coordinates that are not integers. -/
def RectGen (p : V2 ℚ) : Prop := ¬ IsInt p.x ∧ ¬ IsInt p.y

/-- Disjoint lists of rectangles. -/
def RectGood (s : List (Pwh ℚ)) : Prop := (∀ q ∈ s, RectOk q) ∧ s.Pairwise (Apart rectCgal RectGen)

theorem polyBox_rect {b : Box2 ℚ} (h : Fat b) : polyBox (rect b).outer = some b := by
  obtain ⟨h1, h2⟩ := h
  have e1 : min b.xmin b.xmax = b.xmin := min_eq_left h1.le
  have e2 : min b.ymin b.ymax = b.ymin := min_eq_left h2.le
  have e3 : max b.xmin b.xmax = b.xmax := max_eq_right h1.le
  have e4 : max b.ymin b.ymax = b.ymax := max_eq_right h2.le
  have e5 : max b.xmax b.xmin = b.xmax := max_eq_left h1.le
  have e6 : max b.ymax b.ymin = b.ymax := max_eq_left h2.le
  simp [polyBox, rect, Box2.union, Box2.point, e1, e2, e3, e4, e5]

theorem boxOf_rect {b : Box2 ℚ} (h : Fat b) : boxOf (rect b) = b := by
  unfold boxOf; rw [polyBox_rect h]; rfl

theorem interior_rect {b : Box2 ℚ} (h : Fat b) (p : V2 ℚ) : Interior rectCgal (rect b) p ↔ InRect b p := by
  unfold Interior
  have : rectCgal.side (rect b).outer p = rectSide (rect b).outer p := rfl
  rw [this]
  unfold rectSide
  rw [polyBox_rect h]
  have hh : (rect b).holes = [] := rfl
  rw [hh]
  constructor
  · rintro ⟨h1, _⟩
    by_contra hn
    simp only [if_neg hn] at h1
    split at h1 <;> simp at h1
  · intro hb
    exact ⟨by simp only [if_pos hb], by simp⟩

theorem union_comm' (a : Option (Box2 ℚ)) (p q : V2 ℚ) :
    Box2.union (Box2.union a (some (Box2.point p))) (some (Box2.point q)) = Box2.union (Box2.union a (some (Box2.point q))) (some (Box2.point p)) := by
  cases a with
  | none => simp [Box2.union, min_comm, max_comm]
  | some a => simp [Box2.union, min_right_comm, max_right_comm]

theorem polyBox_perm {a b : Poly ℚ} (h : a.Perm b) : polyBox a = polyBox b := by
  unfold polyBox
  exact h.foldl_eq' (fun x _ y _ z => union_comm' z x y) _

theorem polyBox_isRect {b : Box2 ℚ} (h : Fat b) {q : Pwh ℚ} (hq : IsRect b q) : polyBox q.outer = some b := by
  rw [polyBox_perm hq.2.perm, polyBox_rect h]

theorem boxOf_isRect {b : Box2 ℚ} (h : Fat b) {q : Pwh ℚ} (hq : IsRect b q) : boxOf q = b := by
  unfold boxOf; rw [polyBox_isRect h hq]; rfl

theorem interior_isRect {b : Box2 ℚ} (h : Fat b) {q : Pwh ℚ} (hq : IsRect b q) (p : V2 ℚ) : Interior rectCgal q p ↔ InRect b p := by
  rw [← interior_rect h]
  unfold Interior
  have e : rectCgal.side q.outer p = rectCgal.side (rect b).outer p := by
    show rectSide q.outer p = rectSide (rect b).outer p
    unfold rectSide
    rw [polyBox_isRect h hq, polyBox_rect h]
  rw [e, hq.1]
  rfl

theorem isInt_max {x y : ℚ} (hx : IsInt x) (hy : IsInt y) : IsInt (max x y) := by
  rcases max_choice x y with h | h <;> rw [h] <;> assumption

theorem isInt_min {x y : ℚ} (hx : IsInt x) (hy : IsInt y) : IsInt (min x y) := by
  rcases min_choice x y with h | h <;> rw [h] <;> assumption

theorem gen_ne {x c : ℚ} (hx : ¬ IsInt x) (hc : IsInt c) : x ≠ c := by
  rintro rfl; exact hx hc

/-- The interior of a list of at most one rectangle. -/
theorem mem_rects {b : Box2 ℚ} {q : Pwh ℚ} : q ∈ rects b ↔ Fat b ∧ q = rect b := by
  unfold rects
  split <;> simp [*]

theorem cover_rects {b : Box2 ℚ} {p : V2 ℚ} : (∃ q ∈ rects b, Interior rectCgal q p) ↔ InRect b p := by
  constructor
  · rintro ⟨q, hq, hi⟩
    obtain ⟨hf, rfl⟩ := mem_rects.1 hq
    exact (interior_rect hf p).1 hi
  · intro h
    have hf : Fat b := ⟨h.1.trans h.2.1, h.2.2.1.trans h.2.2.2⟩
    exact ⟨rect b, mem_rects.2 ⟨hf, rfl⟩, (interior_rect hf p).2 h⟩

theorem inRect_meet {s t : Box2 ℚ} {p : V2 ℚ} : InRect (boxMeet s t) p ↔ InRect s p ∧ InRect t p := by
  unfold InRect boxMeet
  simp only [max_lt_iff, lt_min_iff]
  tauto

theorem rectOk_rects {b : Box2 ℚ} (h1 : IsInt b.xmin) (h2 : IsInt b.ymin) (h3 : IsInt b.xmax) (h4 : IsInt b.ymax) :
    ∀ q ∈ rects b, RectOk q := by
  intro q hq
  obtain ⟨hf, rfl⟩ := mem_rects.1 hq
  exact ⟨b, hf, h1, h2, h3, h4, isRect_rect b⟩

theorem pairwise_rects {b : Box2 ℚ} : (rects b).Pairwise (Apart rectCgal RectGen) := by
  unfold rects
  split
  · exact List.pairwise_singleton _ _
  · exact List.Pairwise.nil

/-- What a difference covers. -/
theorem rectMinus_spec {q r : Pwh ℚ} (hq : RectOk q) (hr : RectOk r) :
    (∀ s ∈ rectMinus q r, RectOk s) ∧ (rectMinus q r).Pairwise (Apart rectCgal RectGen) ∧
    (∀ p, RectGen p → ((∃ s ∈ rectMinus q r, Interior rectCgal s p) ↔ Interior rectCgal q p ∧ ¬ Interior rectCgal r p)) := by
  obtain ⟨b, hb, b1, b2, b3, b4, hq⟩ := hq
  obtain ⟨c, hc, c1, c2, c3, c4, hr⟩ := hr
  unfold rectMinus
  rw [boxOf_isRect hb hq, boxOf_isRect hc hr]
  by_cases hm : Fat (boxMeet b c)
  · rw [if_pos hm]
    generalize hmm : boxMeet b c = m at hm
    have m1 : IsInt m.xmin := by rw [← hmm]; exact isInt_max b1 c1
    have m2 : IsInt m.ymin := by rw [← hmm]; exact isInt_max b2 c2
    have m3 : IsInt m.xmax := by rw [← hmm]; exact isInt_min b3 c3
    have m4 : IsInt m.ymax := by rw [← hmm]; exact isInt_min b4 c4
    have l1 : b.xmin ≤ m.xmin := by rw [← hmm]; exact le_max_left _ _
    have l2 : b.ymin ≤ m.ymin := by rw [← hmm]; exact le_max_left _ _
    have l3 : m.xmax ≤ b.xmax := by rw [← hmm]; exact min_le_left _ _
    have l4 : m.ymax ≤ b.ymax := by rw [← hmm]; exact min_le_left _ _
    obtain ⟨f1, f2⟩ := hm
    refine ⟨?_, ?_, ?_⟩
    · intro s hs
      simp only [List.mem_append] at hs
      rcases hs with ((hs | hs) | hs) | hs
      · exact rectOk_rects (by exact b1) (by exact b2) (by exact m1) (by exact b4) s hs
      · exact rectOk_rects (by exact m3) (by exact b2) (by exact b3) (by exact b4) s hs
      · exact rectOk_rects (by exact m1) (by exact b2) (by exact m3) (by exact m2) s hs
      · exact rectOk_rects (by exact m1) (by exact m4) (by exact m3) (by exact b4) s hs
    · have hap : ∀ u v : Box2 ℚ, (∀ p, ¬ (InRect u p ∧ InRect v p)) → ∀ x ∈ rects u, ∀ y ∈ rects v, Apart rectCgal RectGen x y := by
        intro u v huv x hx y hy p _ h
        exact huv p ⟨cover_rects.1 ⟨x, hx, h.1⟩, cover_rects.1 ⟨y, hy, h.2⟩⟩
      rw [List.pairwise_append, List.pairwise_append, List.pairwise_append]
      refine ⟨⟨⟨pairwise_rects, pairwise_rects, ?_⟩, pairwise_rects, ?_⟩, pairwise_rects, ?_⟩
      · apply hap
        rintro p ⟨h1, h2⟩
        unfold InRect at h1 h2
        simp only at h1 h2
        linarith [h1.2.1, h2.1]
      · intro x hx y hy
        rcases List.mem_append.1 hx with hx | hx
        · refine hap _ _ ?_ x hx y hy
          rintro p ⟨h1, h2⟩
          unfold InRect at h1 h2
          simp only at h1 h2
          linarith [h1.2.1, h2.1]
        · refine hap _ _ ?_ x hx y hy
          rintro p ⟨h1, h2⟩
          unfold InRect at h1 h2
          simp only at h1 h2
          linarith [h1.1, h2.2.1]
      · intro x hx y hy
        rcases List.mem_append.1 hx with hx | hx
        · rcases List.mem_append.1 hx with hx | hx
          · refine hap _ _ ?_ x hx y hy
            rintro p ⟨h1, h2⟩
            unfold InRect at h1 h2
            simp only at h1 h2
            linarith [h1.2.1, h2.1]
          · refine hap _ _ ?_ x hx y hy
            rintro p ⟨h1, h2⟩
            unfold InRect at h1 h2
            simp only at h1 h2
            linarith [h1.1, h2.2.1]
        · refine hap _ _ ?_ x hx y hy
          rintro p ⟨h1, h2⟩
          unfold InRect at h1 h2
          simp only at h1 h2
          linarith [h1.2.2.2, h2.2.2.1]
    · intro p hp
      simp only [List.mem_append, or_and_right, exists_or]
      rw [cover_rects, cover_rects, cover_rects, cover_rects, interior_isRect hb hq, interior_isRect hc hr]
      have hbc : InRect b p → (InRect c p ↔ InRect m p) := by
        intro h
        rw [← hmm, inRect_meet]; tauto
      have n1 := gen_ne hp.1 m1
      have n2 := gen_ne hp.2 m2
      have n3 := gen_ne hp.1 m3
      have n4 := gen_ne hp.2 m4
      constructor
      · intro h
        have hbp : InRect b p := by
          unfold InRect at h ⊢
          simp only at h
          rcases h with ((h | h) | h) | h
          · exact ⟨h.1, by linarith [h.2.1], h.2.2⟩
          · exact ⟨by linarith [h.1], h.2⟩
          · exact ⟨by linarith [h.1], by linarith [h.2.1], h.2.2.1, by linarith [h.2.2.2]⟩
          · exact ⟨by linarith [h.1], by linarith [h.2.1], by linarith [h.2.2.1], h.2.2.2⟩
        refine ⟨hbp, ?_⟩
        rw [hbc hbp]
        unfold InRect at h ⊢
        simp only at h
        rintro ⟨k1, k2, k3, k4⟩
        rcases h with ((h | h) | h) | h
        · linarith [h.2.1]
        · linarith [h.1]
        · linarith [h.2.2.2]
        · linarith [h.2.2.1]
      · rintro ⟨hbp, hn⟩
        rw [hbc hbp] at hn
        unfold InRect at hbp hn ⊢
        simp only
        obtain ⟨k1, k2, k3, k4⟩ := hbp
        rcases lt_or_gt_of_ne n1 with g1 | g1
        · exact Or.inl (Or.inl (Or.inl ⟨k1, g1, k3, k4⟩))
        rcases lt_or_gt_of_ne n3 with g3 | g3
        · rcases lt_or_gt_of_ne n2 with g2 | g2
          · exact Or.inl (Or.inr ⟨g1, g3, k3, g2⟩)
          · rcases lt_or_gt_of_ne n4 with g4 | g4
            · exact absurd ⟨g1, g3, g2, g4⟩ hn
            · exact Or.inr ⟨g1, g3, g4, k4⟩
        · exact Or.inl (Or.inl (Or.inr ⟨g3, k2, k3, k4⟩))
  · rw [if_neg hm]
    refine ⟨?_, List.pairwise_singleton _ _, ?_⟩
    · intro s hs
      rw [List.mem_singleton] at hs; subst hs
      exact ⟨b, hb, b1, b2, b3, b4, hq⟩
    · intro p hp
      simp only [List.mem_singleton, exists_eq_left]
      rw [interior_isRect hb hq, interior_isRect hc hr]
      refine ⟨fun h => ⟨h, fun h' => hm ?_⟩, fun h => h.1⟩
      have := inRect_meet.2 ⟨h, h'⟩
      exact ⟨this.1.trans this.2.1, this.2.2.1.trans this.2.2.2⟩

theorem rectInter_spec {q r : Pwh ℚ} (hq : RectOk q) (hr : RectOk r) :
    (∀ s ∈ rectInter q r, RectOk s) ∧ (rectInter q r).Pairwise (Apart rectCgal RectGen) ∧
    (∀ p, RectGen p → ((∃ s ∈ rectInter q r, Interior rectCgal s p) ↔ Interior rectCgal q p ∧ Interior rectCgal r p)) := by
  obtain ⟨b, hb, b1, b2, b3, b4, hq⟩ := hq
  obtain ⟨c, hc, c1, c2, c3, c4, hr⟩ := hr
  unfold rectInter
  rw [boxOf_isRect hb hq, boxOf_isRect hc hr]
  refine ⟨rectOk_rects (isInt_max b1 c1) (isInt_max b2 c2) (isInt_min b3 c3) (isInt_min b4 c4), pairwise_rects, fun p _ => ?_⟩
  rw [cover_rects, interior_isRect hb hq, interior_isRect hc hr, inRect_meet]

/-- Applying a cut to each rectangle of a list. -/
theorem flatMap_good {s : List (Pwh ℚ)} (hs : RectGood s) {g : Pwh ℚ → List (Pwh ℚ)} {P : V2 ℚ → Prop}
    (hg : ∀ q, RectOk q → (∀ s ∈ g q, RectOk s) ∧ (g q).Pairwise (Apart rectCgal RectGen) ∧
      (∀ p, RectGen p → ((∃ s ∈ g q, Interior rectCgal s p) ↔ Interior rectCgal q p ∧ P p))) :
    RectGood (s.flatMap g) ∧ ∀ p, RectGen p → ((∃ q ∈ s.flatMap g, Interior rectCgal q p) ↔ (∃ q ∈ s, Interior rectCgal q p) ∧ P p) := by
  refine ⟨⟨?_, ?_⟩, ?_⟩
  · intro q hq
    obtain ⟨r, hr, hqr⟩ := List.mem_flatMap.1 hq
    exact (hg r (hs.1 r hr)).1 q hqr
  · obtain ⟨h1, h2⟩ := hs
    induction s with
    | nil => exact List.Pairwise.nil
    | cons r s ih =>
      rw [List.flatMap_cons, List.pairwise_append]
      have h2' := List.pairwise_cons.1 h2
      refine ⟨(hg r (h1 r List.mem_cons_self)).2.1, ih (fun q hq => h1 q (List.mem_cons_of_mem _ hq)) h2'.2, ?_⟩
      intro x hx y hy p hp h
      obtain ⟨t, ht, hyt⟩ := List.mem_flatMap.1 hy
      have e1 := ((hg r (h1 r List.mem_cons_self)).2.2 p hp).1 ⟨x, hx, h.1⟩
      have e2 := ((hg t (h1 t (List.mem_cons_of_mem _ ht))).2.2 p hp).1 ⟨y, hyt, h.2⟩
      exact h2'.1 t ht p hp ⟨e1.1, e2.1⟩
  · intro p hp
    constructor
    · rintro ⟨q, hq, hi⟩
      obtain ⟨r, hr, hqr⟩ := List.mem_flatMap.1 hq
      have := ((hg r (hs.1 r hr)).2.2 p hp).1 ⟨q, hqr, hi⟩
      exact ⟨⟨r, hr, this.1⟩, this.2⟩
    · rintro ⟨⟨r, hr, hi⟩, hP⟩
      obtain ⟨q, hq, hiq⟩ := ((hg r (hs.1 r hr)).2.2 p hp).2 ⟨hi, hP⟩
      exact ⟨q, List.mem_flatMap.2 ⟨r, hr, hq⟩, hiq⟩

theorem minus_rect {s : List (Pwh ℚ)} (hs : RectGood s) {q : Pwh ℚ} (hq : RectOk q) :
    RectGood (s.flatMap fun r => rectMinus r q) ∧ ∀ p, RectGen p →
      ((∃ r ∈ s.flatMap fun r => rectMinus r q, Interior rectCgal r p) ↔ (∃ r ∈ s, Interior rectCgal r p) ∧ ¬ Interior rectCgal q p) :=
  flatMap_good hs fun _ hr => rectMinus_spec hr hq

theorem foldl_minus {s : List (Pwh ℚ)} (hs : ∀ q ∈ s, RectOk q) {t : List (Pwh ℚ)} (ht : RectGood t) :
    RectGood (s.foldl (fun t r => t.flatMap fun x => rectMinus x r) t) ∧ ∀ p, RectGen p →
      ((∃ r ∈ s.foldl (fun t r => t.flatMap fun x => rectMinus x r) t, Interior rectCgal r p) ↔
        (∃ r ∈ t, Interior rectCgal r p) ∧ ∀ q ∈ s, ¬ Interior rectCgal q p) := by
  induction s generalizing t with
  | nil => exact ⟨ht, fun p _ => by simp⟩
  | cons r s ih =>
    have h1 := minus_rect ht (hs r List.mem_cons_self)
    have h2 := ih (fun q hq => hs q (List.mem_cons_of_mem _ hq)) h1.1
    refine ⟨h2.1, fun p hp => ?_⟩
    rw [List.foldl_cons, h2.2 p hp, h1.2 p hp, List.forall_mem_cons]
    tauto

theorem meet_rect {s : List (Pwh ℚ)} (hs : RectGood s) {q : Pwh ℚ} (hq : RectOk q) :
    RectGood (rectCgal.meet s q) ∧ ∀ p, RectGen p → (Covers rectCgal (rectCgal.meet s q) p ↔
      Covers rectCgal s p ∧ Interior rectCgal q p) := by
  have h0 := foldl_minus hs.1 (t := [q]) ⟨by simpa using hq, List.pairwise_singleton _ _⟩
  have hflat := flatMap_good hs fun r hr => rectInter_spec hr hq
  have hmeet : rectCgal.meet s q = if (s.foldl (fun t r => t.flatMap fun x => rectMinus x r) [q]).isEmpty then [q]
      else s.flatMap fun r => rectInter r q := rfl
  rw [hmeet]
  split
  · rename_i he
    rw [List.isEmpty_iff] at he
    refine ⟨⟨by simpa using hq, List.pairwise_singleton _ _⟩, fun p hp => ?_⟩
    have := h0.2 p hp
    rw [he] at this
    show (∃ r ∈ [q], Interior rectCgal r p) ↔ _
    unfold Covers
    simp only [List.mem_singleton, exists_eq_left] at this ⊢
    constructor
    · intro hi
      by_contra hn
      have hall : ∀ r ∈ s, ¬ Interior rectCgal r p := by
        intro r hr hir
        exact hn ⟨⟨r, hr, hir⟩, hi⟩
      have := this.2 ⟨hi, hall⟩
      simp at this
    · exact fun h => h.2
  · exact hflat

/-- There are points off the grid in every interval. -/
theorem exists_gen {a b : ℚ} (h : a < b) : ∃ x, a < x ∧ x < b ∧ ¬ IsInt x := by
  by_cases hm : IsInt ((a + b) / 2)
  · obtain ⟨n, hn⟩ := hm
    refine ⟨min ((a + b) / 2 + 1 / 2) (((a + b) / 2 + b) / 2), ?_, ?_, ?_⟩
    · rw [lt_min_iff]; constructor <;> linarith
    · rw [min_lt_iff]; right; linarith
    · rintro ⟨m, hm⟩
      have h1 : (n : ℚ) < m := by rw [← hm, ← hn, lt_min_iff]; constructor <;> linarith
      have h2 : (m : ℚ) < n + 1 := by rw [← hm, ← hn, min_lt_iff]; left; linarith
      have h1' : n < m := by exact_mod_cast h1
      have h2' : m < n + 1 := by exact_mod_cast h2
      omega
  · exact ⟨_, by linarith, by linarith, hm⟩

/-- Points of a rectangle close to a corner. -/
theorem corner {a b : ℚ} (h : a < b) (e : ℚ) (he : 0 < e) : (∃ x, a < x ∧ x < b ∧ x < a + e ∧ ¬ IsInt x) ∧
    (∃ x, a < x ∧ x < b ∧ b - e < x ∧ ¬ IsInt x) := by
  constructor
  · obtain ⟨x, h1, h2, h3⟩ := exists_gen (a := a) (b := min b (a + e)) (by rw [lt_min_iff]; constructor <;> linarith)
    rw [lt_min_iff] at h2
    exact ⟨x, h1, h2.1, h2.2, h3⟩
  · obtain ⟨x, h1, h2, h3⟩ := exists_gen (a := max a (b - e)) (b := b) (by rw [max_lt_iff]; constructor <;> linarith)
    rw [max_lt_iff] at h1
    exact ⟨x, h1.1, h2, h1.2, h3⟩

theorem close {A B e x y vx vy : ℚ} (he : 0 < e) (hx : |x - vx| ≤ e) (hy : |y - vy| ≤ e) (c : ℚ) :
    A * x + B * y + c ≤ A * vx + B * vy + c + (|A| + |B|) * e := by
  have h1 : A * (x - vx) ≤ |A| * e := by
    calc A * (x - vx) ≤ |A * (x - vx)| := le_abs_self _
      _ = |A| * |x - vx| := abs_mul _ _
      _ ≤ |A| * e := mul_le_mul_of_nonneg_left hx (abs_nonneg _)
  have h2 : B * (y - vy) ≤ |B| * e := by
    calc B * (y - vy) ≤ |B * (y - vy)| := le_abs_self _
      _ = |B| * |y - vy| := abs_mul _ _
      _ ≤ |B| * e := mul_le_mul_of_nonneg_left hy (abs_nonneg _)
  nlinarith

theorem tight_rect {b : Box2 ℚ} (hb : Fat b) (A B c : ℚ) (h : ∀ p, RectGen p → InRect b p → 0 ≤ A * p.x + B * p.y + c) (v : V2 ℚ)
    (hv : v ∈ (rect b).outer) : 0 ≤ A * v.x + B * v.y + c := by
  by_contra hn
  rw [not_le] at hn
  have hs : 0 < |A| + |B| + 1 := by have := abs_nonneg A; have := abs_nonneg B; linarith
  obtain ⟨e, he, hlt⟩ : ∃ e : ℚ, 0 < e ∧ (|A| + |B|) * e < -(A * v.x + B * v.y + c) := by
    refine ⟨-(A * v.x + B * v.y + c) / (|A| + |B| + 1), div_pos (by linarith) hs, ?_⟩
    rw [mul_div_assoc', div_lt_iff₀ hs]
    nlinarith
  obtain ⟨⟨x1, a1, a2, a3, a4⟩, ⟨x2, b1, b2, b3, b4⟩⟩ := corner hb.1 e he
  obtain ⟨⟨y1, c1, c2, c3, c4⟩, ⟨y2, d1, d2, d3, d4⟩⟩ := corner hb.2 e he
  have key : ∀ x y, ¬ IsInt x → ¬ IsInt y → b.xmin < x → x < b.xmax → b.ymin < y → y < b.ymax → |x - v.x| ≤ e → |y - v.y| ≤ e → False := by
    intro x y h1 h2 h3 h4 h5 h6 h7 h8
    have := h ⟨x, y⟩ ⟨h1, h2⟩ ⟨h3, h4, h5, h6⟩
    have := close (A := A) (B := B) he h7 h8 c
    simp only at *
    linarith
  simp only [rect, List.mem_cons, List.not_mem_nil, or_false] at hv
  rcases hv with rfl | rfl | rfl | rfl
  · exact key x1 y1 a4 c4 a1 a2 c1 c2 (by rw [abs_le]; constructor <;> simp only <;> linarith) (by rw [abs_le]; constructor <;> simp only <;> linarith)
  · exact key x2 y1 b4 c4 b1 b2 c1 c2 (by rw [abs_le]; constructor <;> simp only <;> linarith) (by rw [abs_le]; constructor <;> simp only <;> linarith)
  · exact key x2 y2 b4 d4 b1 b2 d1 d2 (by rw [abs_le]; constructor <;> simp only <;> linarith) (by rw [abs_le]; constructor <;> simp only <;> linarith)
  · exact key x1 y2 a4 d4 a1 a2 d1 d2 (by rw [abs_le]; constructor <;> simp only <;> linarith) (by rw [abs_le]; constructor <;> simp only <;> linarith)

theorem hull_rect {b : Box2 ℚ} (A B c : ℚ) (h : ∀ v ∈ (rect b).outer, 0 ≤ A * v.x + B * v.y + c) (p : V2 ℚ) (hp : InRect b p) :
    0 ≤ A * p.x + B * p.y + c := by
  obtain ⟨h1, h2, h3, h4⟩ := hp
  have k1 := h ⟨b.xmin, b.ymin⟩ (by simp [rect])
  have k2 := h ⟨b.xmax, b.ymin⟩ (by simp [rect])
  have k3 := h ⟨b.xmax, b.ymax⟩ (by simp [rect])
  have k4 := h ⟨b.xmin, b.ymax⟩ (by simp [rect])
  simp only at k1 k2 k3 k4
  rcases le_total 0 A with hA | hA <;> rcases le_total 0 B with hB | hB <;> nlinarith

theorem strict_rect {b : Box2 ℚ} (A B c : ℚ) (hAB : A ≠ 0 ∨ B ≠ 0) (h : ∀ v ∈ (rect b).outer, 0 ≤ A * v.x + B * v.y + c) (p : V2 ℚ)
    (hp : InRect b p) : 0 < A * p.x + B * p.y + c := by
  have h1 := h ⟨b.xmin, b.ymin⟩ (by simp [rect])
  have h2 := h ⟨b.xmax, b.ymin⟩ (by simp [rect])
  have h3 := h ⟨b.xmax, b.ymax⟩ (by simp [rect])
  have h4 := h ⟨b.xmin, b.ymax⟩ (by simp [rect])
  obtain ⟨p1, p2, p3, p4⟩ := hp
  simp only at h1 h2 h3 h4
  rcases lt_trichotomy A 0 with hA | hA | hA <;> rcases lt_trichotomy B 0 with hB | hB | hB
  · nlinarith [mul_lt_mul_of_neg_left p2 hA, mul_lt_mul_of_neg_left p4 hB]
  · subst hB; nlinarith [mul_lt_mul_of_neg_left p2 hA]
  · nlinarith [mul_lt_mul_of_neg_left p2 hA, mul_lt_mul_of_pos_left p3 hB]
  · subst hA; nlinarith [mul_lt_mul_of_neg_left p4 hB]
  · subst hA; subst hB; simp at hAB
  · subst hA; nlinarith [mul_lt_mul_of_pos_left p3 hB]
  · nlinarith [mul_lt_mul_of_pos_left p1 hA, mul_lt_mul_of_neg_left p4 hB]
  · subst hB; nlinarith [mul_lt_mul_of_pos_left p1 hA]
  · nlinarith [mul_lt_mul_of_pos_left p1 hA, mul_lt_mul_of_pos_left p3 hB]

/-- The library of rectangles satisfies the assumptions. -/
theorem rect_lawful : Lawful rectCgal RectOk RectGood RectGen where
  exact _ := rfl
  gen_outer := by
    rintro q ⟨b, hb, b1, b2, b3, b4, hq⟩ p hp
    change rectSide q.outer p ≠ Side.boundary
    unfold rectSide
    rw [polyBox_isRect hb hq]
    have n1 := gen_ne hp.1 b1
    have n2 := gen_ne hp.2 b2
    have n3 := gen_ne hp.1 b3
    have n4 := gen_ne hp.2 b4
    simp only
    split
    · simp
    · rename_i hn
      rw [if_neg]
      · simp
      · rintro ⟨h1, h2, h3, h4⟩
        exact hn ⟨lt_of_le_of_ne h1 n1.symm, lt_of_le_of_ne h2 n3, lt_of_le_of_ne h3 n2.symm, lt_of_le_of_ne h4 n4⟩
  gen_holes := by
    rintro q ⟨b, hb, b1, b2, b3, b4, hq⟩ p hp h hh
    rw [hq.1] at hh
    simp at hh
  rotation := by
    intro a b h p
    show rectSide a p = rectSide b p
    unfold rectSide
    rw [polyBox_perm h.perm]
  three := by rintro q ⟨b, hb, _, _, _, _, hq⟩; rw [hq.2.perm.length_eq]; simp [rect]
  thick := by rintro q ⟨b, hb, _, _, _, _, hq⟩; exact Or.inl hq.1
  inner := by
    rintro q ⟨b, hb, _, _, _, _, hq⟩
    obtain ⟨x, h1, h2, h3⟩ := exists_gen hb.1
    obtain ⟨y, k1, k2, k3⟩ := exists_gen hb.2
    exact ⟨⟨x, y⟩, ⟨h3, k3⟩, (interior_isRect hb hq _).2 ⟨h1, h2, k1, k2⟩⟩
  hull := by
    rintro q ⟨b, hb, _, _, _, _, hq⟩ p hp hi A B c h
    exact hull_rect A B c (fun v hv => h v (hq.2.perm.mem_iff.2 hv)) p ((interior_isRect hb hq p).1 hi)
  strict := by
    rintro q ⟨b, hb, _, _, _, _, hq⟩ p hp hi A B c hAB h
    exact strict_rect A B c hAB (fun v hv => h v (hq.2.perm.mem_iff.2 hv)) p ((interior_isRect hb hq p).1 hi)
  tight := by
    rintro q ⟨b, hb, _, _, _, _, hq⟩ A B c h v hv
    exact tight_rect hb A B c (fun p hp hi => h p hp ((interior_isRect hb hq p).2 hi)) v (hq.2.perm.mem_iff.1 hv)
  inter_ok q r hq hr := (rectInter_spec hq hr).1
  inter_iff q r hq hr := (rectInter_spec hq hr).2.2
  inter_apart q r hq hr := (rectInter_spec hq hr).2.1
  empty_good := ⟨(by intro q hq; cases hq), List.Pairwise.nil⟩
  of_good q hq := ⟨by intro r hr; rw [List.mem_singleton.1 hr]; exact hq, List.pairwise_singleton _ _⟩
  join_good s q hs hq := by
    have := minus_rect hs hq
    refine ⟨?_, ?_⟩
    · intro r hr
      rcases List.mem_append.1 hr with hr | hr
      · exact this.1.1 r hr
      · rw [List.mem_singleton.1 hr]; exact hq
    · refine List.pairwise_append.2 ⟨this.1.2, List.pairwise_singleton _ _, ?_⟩
      intro x hx y hy p hp h
      rw [List.mem_singleton.1 hy] at h
      exact ((this.2 p hp).1 ⟨x, hx, h.1⟩).2 h.2
  meet_good s q hs hq := (meet_rect hs hq).1
  minus_good s q hs hq := (minus_rect hs hq).1
  pieces_ok s hs := hs.1
  pieces_apart s hs := hs.2
  covers_empty p _ := by rintro ⟨q, hq, _⟩; cases hq
  of_one q _ := ⟨q, rfl⟩
  covers_of q _ p _ := by
    show (∃ r ∈ [q], Interior rectCgal r p) ↔ _
    simp
  covers_join s q hs hq p hp := by
    change List (Pwh ℚ) at s
    change (∃ r ∈ (s.flatMap fun r => rectMinus r q) ++ [q], Interior rectCgal r p) ↔ (∃ r ∈ s, Interior rectCgal r p) ∨ _
    have := (minus_rect hs hq).2 p hp
    simp only [List.mem_append, or_and_right, exists_or, List.mem_singleton, exists_eq_left]
    rw [this]
    by_cases hi : Interior rectCgal q p <;> simp [hi]
  covers_meet s q hs hq := (meet_rect hs hq).2
  covers_minus s q hs hq := (minus_rect hs hq).2
  isEmpty_iff s _ := List.isEmpty_iff

end City.Spec
