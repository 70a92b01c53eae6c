import Verif.Spec.Brick
import Mathlib.Tactic.Linarith
import Mathlib.Tactic.Ring
import Mathlib.Tactic.FieldSimp
/-! Lemmas about brick prints over a lawful library. -/
set_option linter.unusedSectionVars false
namespace City.Spec
open City Brick
variable {K : Type} [Field K] [LinearOrder K] [IsStrictOrderedRing K]
variable {C : Cgal K} {Ok : Pwh K → Prop} {Good : C.PSet → Prop} {Gen : V2 K → Prop}

theorem planeHeight_ok (L : Lawful C Ok Good Gen) {f : FacePrint K} (hc : f.plane.c ≠ 0) (p : V2 K) :
    f.planeHeight C p = .ok (zAt f p) := by
  unfold FacePrint.planeHeight zAt
  rw [if_neg hc, L.exact]
  congr 2
  ring

theorem keep_valid (L : Lawful C Ok Good Gen) {f : FacePrint K} (hf : ValidFace Ok f) : keep C f = true := by
  have h3 := L.three _ hf.1
  unfold keep FacePrint.isEmpty FacePrint.isDegenerate FacePrint.isPerpendicular
  have h1 : f.border.outer.isEmpty = false := by
    cases h : f.border.outer with
    | nil => rw [h] at h3; simp at h3
    | cons a t => rfl
  rw [h1, decide_eq_false hf.2]
  rcases L.thick _ hf.1 with h | h
  · rw [h]; rfl
  · have h' : FacePrint.eps ≤ |FacePrint.area C f| := h f.id f.plane
    have hd : decide (|FacePrint.area C f| < FacePrint.eps) = false := decide_eq_false (not_lt.2 h')
    rw [hd, Bool.and_false]; rfl

theorem filter_valid (L : Lawful C Ok Good Gen) {fs : List (FacePrint K)} (h : ∀ f ∈ fs, ValidFace Ok f) : fs.filter (keep C) = fs :=
  List.filter_eq_self.2 fun f hf => keep_valid L (h f hf)

theorem notDegenerate (L : Lawful C Ok Good Gen) {f : FacePrint K} (hf : ValidFace Ok f) : f.isDegenerate C = false := by
  have := keep_valid L hf
  unfold keep at this
  rw [Bool.not_eq_true', Bool.or_eq_false_iff] at this
  exact this.2

theorem sample_ok (L : Lawful C Ok Good Gen) {q : Pwh K} (hq : Ok q) :
    ∃ a ∈ q.outer, ∃ b ∈ q.outer, ∃ c ∈ q.outer, sample q = .ok ⟨(a.x + b.x + c.x) / 3, (a.y + b.y + c.y) / 3⟩ := by
  have h3 := L.three _ hq
  unfold sample
  revert h3
  rcases q.outer with _ | ⟨a, _ | ⟨b, _ | ⟨c, t⟩⟩⟩ <;> intro h3
  · simp at h3
  · simp at h3
  · simp at h3
  · exact ⟨a, by simp, b, by simp, c, by simp, rfl⟩

/-- At generic points the closed region is the interior. -/
theorem contains_gen (L : Lawful C Ok Good Gen) {f : FacePrint K} (hf : Ok f.border) {p : V2 K} (hp : Gen p) :
    f.contains C p = true ↔ Interior C f.border p := by
  unfold FacePrint.contains Interior
  rw [Bool.and_eq_true, bne_iff_ne, List.all_eq_true]
  have ho := L.gen_outer _ hf p hp
  have hh := L.gen_holes _ hf p hp
  constructor
  · rintro ⟨h1, h2⟩
    refine ⟨?_, fun h hmem => ?_⟩
    · cases hs : C.side f.border.outer p <;> simp_all
    · have h3 := h2 h hmem
      have h4 := hh h hmem
      rw [bne_iff_ne] at h3
      cases hs : C.side h p <;> simp_all
  · rintro ⟨h1, h2⟩
    refine ⟨by rw [h1]; decide, fun h hmem => by rw [h2 h hmem]; decide⟩

/-! ### Affine comparison of two planes -/

/-- The height of one plane above another is an affine function. -/
theorem zAt_sub (f g : FacePrint K) : ∃ a b c : K, ∀ p, zAt f p - zAt g p = a * p.x + b * p.y + c := by
  refine ⟨g.plane.a / g.plane.c - f.plane.a / f.plane.c, g.plane.b / g.plane.c - f.plane.b / f.plane.c,
    g.plane.d / g.plane.c - f.plane.d / f.plane.c, fun p => ?_⟩
  unfold zAt
  rw [sub_div, sub_div, sub_div, sub_div]
  ring

/-- A list of vertices on which an affine function is positive has a positive lower bound. -/
theorem pos_bound (l : Poly K) (a b c : K) (h : ∀ v ∈ l, 0 < a * v.x + b * v.y + c) :
    ∃ m : K, 0 < m ∧ ∀ v ∈ l, m ≤ a * v.x + b * v.y + c := by
  induction l with
  | nil => exact ⟨1, one_pos, by simp⟩
  | cons u t ih =>
    obtain ⟨m, hm, hmt⟩ := ih fun v hv => h v (List.mem_cons_of_mem _ hv)
    refine ⟨min m (a * u.x + b * u.y + c), lt_min hm (h u List.mem_cons_self), fun v hv => ?_⟩
    rcases List.mem_cons.1 hv with rfl | hv
    · exact min_le_right _ _
    · exact (min_le_left _ _).trans (hmt v hv)

theorem hull_pos (L : Lawful C Ok Good Gen) {q : Pwh K} (hq : Ok q) {p : V2 K} (hp : Gen p) (hi : Interior C q p) (a b c : K)
    (h : ∀ v ∈ q.outer, 0 < a * v.x + b * v.y + c) : 0 < a * p.x + b * p.y + c := by
  obtain ⟨m, hm, hmv⟩ := pos_bound q.outer a b c h
  have := L.hull q hq p hp hi a b (c - m) fun v hv => by have := hmv v hv; linarith
  linarith

/-- The vertices of a subregion are in the convex hull. -/
theorem sub_hull (L : Lawful C Ok Good Gen) {q s : Pwh K} (hq : Ok q) (hs : Ok s) (hsub : ∀ p, Gen p → Interior C s p → Interior C q p)
    (a b c : K) (h : ∀ v ∈ q.outer, 0 ≤ a * v.x + b * v.y + c) : ∀ v ∈ s.outer, 0 ≤ a * v.x + b * v.y + c :=
  L.tight s hs a b c fun p hp hi => L.hull q hq p hp (hsub p hp hi) a b c h

theorem sub_hull_pos (L : Lawful C Ok Good Gen) {q s : Pwh K} (hq : Ok q) (hs : Ok s)
    (hsub : ∀ p, Gen p → Interior C s p → Interior C q p)
    (a b c : K) (h : ∀ v ∈ q.outer, 0 < a * v.x + b * v.y + c) : ∀ v ∈ s.outer, 0 < a * v.x + b * v.y + c := by
  obtain ⟨m, hm, hmv⟩ := pos_bound q.outer a b c h
  intro v hv
  have := sub_hull L hq hs hsub a b (c - m) (fun v hv => by have := hmv v hv; linarith) v hv
  linarith

/-- One face is above another at all the vertices of a polygon. -/
def AboveOn (f g : FacePrint K) (q : Pwh K) : Prop := ∀ v ∈ q.outer, zAt g v < zAt f v

/-- One face is at least as high as another at all the vertices of a polygon. -/
def NotBelowOn (f g : FacePrint K) (q : Pwh K) : Prop := ∀ v ∈ q.outer, zAt g v ≤ zAt f v

theorem above_sub (L : Lawful C Ok Good Gen) {f g : FacePrint K} {q s : Pwh K} (hq : Ok q) (hs : Ok s)
    (hsub : ∀ p, Gen p → Interior C s p → Interior C q p) (h : AboveOn f g q) : AboveOn f g s := by
  obtain ⟨a, b, c, hz⟩ := zAt_sub f g
  intro v hv
  have := sub_hull_pos L hq hs hsub a b c (fun v hv => by rw [← hz]; exact sub_pos.2 (h v hv)) v hv
  rw [← hz] at this
  exact sub_pos.1 this

theorem notBelow_sub (L : Lawful C Ok Good Gen) {f g : FacePrint K} {q s : Pwh K} (hq : Ok q) (hs : Ok s)
    (hsub : ∀ p, Gen p → Interior C s p → Interior C q p) (h : NotBelowOn f g q) : NotBelowOn f g s := by
  obtain ⟨a, b, c, hz⟩ := zAt_sub f g
  intro v hv
  have := sub_hull L hq hs hsub a b c (fun v hv => by rw [← hz]; exact sub_nonneg.2 (h v hv)) v hv
  rw [← hz] at this
  exact sub_nonneg.1 this

theorem above_at (L : Lawful C Ok Good Gen) {f g : FacePrint K} {q : Pwh K} (hq : Ok q) (h : AboveOn f g q) {p : V2 K} (hp : Gen p)
    (hi : Interior C q p) : zAt g p < zAt f p := by
  obtain ⟨a, b, c, hz⟩ := zAt_sub f g
  have := hull_pos L hq hp hi a b c (fun v hv => by rw [← hz]; exact sub_pos.2 (h v hv))
  rw [← hz] at this
  exact sub_pos.1 this

theorem notBelow_at (L : Lawful C Ok Good Gen) {f g : FacePrint K} {q : Pwh K} (hq : Ok q) (h : NotBelowOn f g q) {p : V2 K} (hp : Gen p)
    (hi : Interior C q p) : zAt g p ≤ zAt f p := by
  obtain ⟨a, b, c, hz⟩ := zAt_sub f g
  have := L.hull q hq p hp hi a b c (fun v hv => by rw [← hz]; exact sub_nonneg.2 (h v hv))
  rw [← hz] at this
  exact sub_nonneg.1 this

/-- Where two faces are above each other, the first is higher by more than some gap. -/
def Gap (C : Cgal K) (Gen : V2 K → Prop) (f g : FacePrint K) : Prop :=
  ∃ e : K, 0 < e ∧ ∀ p, Gen p → Interior C f.border p → Interior C g.border p → zAt g p + e ≤ zAt f p

/-- Where two faces are above each other, the first is not lower. -/
def NotBelow (C : Cgal K) (Gen : V2 K → Prop) (f g : FacePrint K) : Prop :=
  ∀ p, Gen p → Interior C f.border p → Interior C g.border p → zAt g p ≤ zAt f p

theorem gap_of_above (L : Lawful C Ok Good Gen) {f g : FacePrint K} (hg : Ok g.border) (h : AboveOn f g g.border) : Gap C Gen f g := by
  obtain ⟨a, b, c, hz⟩ := zAt_sub f g
  obtain ⟨m, hm, hmv⟩ := pos_bound g.border.outer a b c fun v hv => by rw [← hz]; exact sub_pos.2 (h v hv)
  refine ⟨m, hm, fun p hp _ hi => ?_⟩
  have := L.hull g.border hg p hp hi a b (c - m) fun v hv => by have := hmv v hv; linarith
  have := hz p
  linarith

theorem notBelow_of_on (L : Lawful C Ok Good Gen) {f g q : FacePrint K} (hq : Ok q.border) (h : NotBelowOn f g q.border)
    (hfq : q = f ∨ q = g) : NotBelow C Gen f g := by
  intro p hp h1 h2
  rcases hfq with rfl | rfl
  · exact notBelow_at L hq h hp h1
  · exact notBelow_at L hq h hp h2

theorem above_of_gap (L : Lawful C Ok Good Gen) {f g : FacePrint K} {q : Pwh K} (hq : Ok q)
    (hs : ∀ p, Gen p → Interior C q p → Interior C f.border p ∧ Interior C g.border p) (h : Gap C Gen f g) : AboveOn f g q := by
  obtain ⟨a, b, c, hz⟩ := zAt_sub f g
  obtain ⟨m, hm, hmp⟩ := h
  intro v hv
  have := L.tight q hq a b (c - m) (fun p hp hi => by
    have h1 := hmp p hp (hs p hp hi).1 (hs p hp hi).2
    have h2 := hz p
    linarith) v hv
  have := hz v
  linarith

theorem on_of_notBelow (L : Lawful C Ok Good Gen) {f g : FacePrint K} {q : Pwh K} (hq : Ok q)
    (hs : ∀ p, Gen p → Interior C q p → Interior C f.border p ∧ Interior C g.border p) (h : NotBelow C Gen f g) : NotBelowOn f g q := by
  obtain ⟨a, b, c, hz⟩ := zAt_sub f g
  intro v hv
  have := L.tight q hq a b c (fun p hp hi => by
    have h1 := h p hp (hs p hp hi).1 (hs p hp hi).2
    have h2 := hz p
    linarith) v hv
  have := hz v
  linarith

theorem above_sample (L : Lawful C Ok Good Gen) {f g : FacePrint K} {q : Pwh K} (hq : Ok q) (h : AboveOn f g q) {m : V2 K}
    (hm : sample q = .ok m) : zAt g m < zAt f m := by
  obtain ⟨a, ha, b, hb, c, hc, hs⟩ := sample_ok L hq
  rw [hs] at hm
  cases hm
  obtain ⟨u, v, w, hz⟩ := zAt_sub f g
  have e : ∀ x, 0 < u * x.x + v * x.y + w ↔ zAt g x < zAt f x := fun x => by rw [← hz, sub_pos]
  rw [← e]
  have h1 := (e a).2 (h a ha)
  have h2 := (e b).2 (h b hb)
  have h3 := (e c).2 (h c hc)
  have : u * ((a.x + b.x + c.x) / 3) + v * ((a.y + b.y + c.y) / 3) + w =
      ((u * a.x + v * a.y + w) + (u * b.x + v * b.y + w) + (u * c.x + v * c.y + w)) / 3 := by ring
  show 0 < u * ((a.x + b.x + c.x) / 3) + v * ((a.y + b.y + c.y) / 3) + w
  rw [this]
  positivity

theorem notBelow_sample (L : Lawful C Ok Good Gen) {f g : FacePrint K} {q : Pwh K} (hq : Ok q) (h : NotBelowOn f g q) {m : V2 K}
    (hm : sample q = .ok m) : zAt g m ≤ zAt f m := by
  obtain ⟨a, ha, b, hb, c, hc, hs⟩ := sample_ok L hq
  rw [hs] at hm
  cases hm
  obtain ⟨u, v, w, hz⟩ := zAt_sub f g
  have e : ∀ x, 0 ≤ u * x.x + v * x.y + w ↔ zAt g x ≤ zAt f x := fun x => by rw [← hz, sub_nonneg]
  rw [← e]
  have h1 := (e a).2 (h a ha)
  have h2 := (e b).2 (h b hb)
  have h3 := (e c).2 (h c hc)
  have : u * ((a.x + b.x + c.x) / 3) + v * ((a.y + b.y + c.y) / 3) + w =
      ((u * a.x + v * a.y + w) + (u * b.x + v * b.y + w) + (u * c.x + v * c.y + w)) / 3 := by ring
  show 0 ≤ u * ((a.x + b.x + c.x) / 3) + v * ((a.y + b.y + c.y) / 3) + w
  rw [this]
  positivity

/-! ### One face against another -/

/-- At the sample point of the piece the first face is strictly higher. -/
def Wins (l r : FacePrint K) (q : Pwh K) : Prop := ∃ m, sample q = .ok m ∧ zAt r m < zAt l m

theorem carve_spec (L : Lawful C Ok Good Gen) {l r : FacePrint K} (hl : l.plane.c ≠ 0) (hr : r.plane.c ≠ 0) :
    ∀ (qs : List (Pwh K)), (∀ q ∈ qs, Ok q) → ∀ sl sr, Good sl → Good sr →
      ∃ sl' sr', carve C l r qs sl sr = .ok (sl', sr') ∧ Good sl' ∧ Good sr' ∧
        (∀ p, Gen p → (Covers C sl' p ↔ Covers C sl p ∧ ∀ q ∈ qs, ¬ Wins l r q → ¬ Interior C q p)) ∧
        (∀ p, Gen p → (Covers C sr' p ↔ Covers C sr p ∧ ∀ q ∈ qs, Wins l r q → ¬ Interior C q p)) ∧
        ((∀ q ∈ qs, ¬ Wins l r q) → sr' = sr) ∧ ((∀ q ∈ qs, Wins l r q) → sl' = sl) := by
  intro qs
  induction qs with
  | nil =>
    intro _ sl sr hsl hsr
    exact ⟨sl, sr, rfl, hsl, hsr, by simp, by simp, fun _ => rfl, fun _ => rfl⟩
  | cons q qs ih =>
    intro hq sl sr hsl hsr
    have hqo := hq q List.mem_cons_self
    have hqs : ∀ q ∈ qs, Ok q := fun x hx => hq x (List.mem_cons_of_mem _ hx)
    obtain ⟨a, ha, b, hb, c, hc, hs⟩ := sample_ok L hqo
    generalize hm : (⟨(a.x + b.x + c.x) / 3, (a.y + b.y + c.y) / 3⟩ : V2 K) = m at hs
    have hw : Wins l r q ↔ zAt l m > zAt r m := by
      constructor
      · rintro ⟨m', h1, h2⟩
        rw [hs] at h1; cases h1; exact h2
      · exact fun h => ⟨m, hs, h⟩
    unfold carve
    rw [hs, Out.ok_bind, planeHeight_ok L hl, Out.ok_bind, planeHeight_ok L hr, Out.ok_bind]
    by_cases h : zAt l m > zAt r m
    · rw [if_pos h]
      obtain ⟨sl', sr', he, hg1, hg2, h1, h2, h3, h4⟩ := ih hqs sl (C.minus sr q) hsl (L.minus_good _ _ hsr hqo)
      refine ⟨sl', sr', he, hg1, hg2, fun p hp => ?_, fun p hp => ?_, fun hall => ?_, fun hall => ?_⟩
      · rw [h1 p hp, List.forall_mem_cons]
        have := hw.2 h
        tauto
      · rw [h2 p hp, L.covers_minus _ _ hsr hqo p hp, List.forall_mem_cons]
        have := hw.2 h
        tauto
      · exact absurd (hw.2 h) (hall q List.mem_cons_self)
      · exact h4 fun x hx => hall x (List.mem_cons_of_mem _ hx)
    · rw [if_neg h]
      obtain ⟨sl', sr', he, hg1, hg2, h1, h2, h3, h4⟩ := ih hqs (C.minus sl q) sr (L.minus_good _ _ hsl hqo) hsr
      refine ⟨sl', sr', he, hg1, hg2, fun p hp => ?_, fun p hp => ?_, fun hall => ?_, fun hall => ?_⟩
      · rw [h1 p hp, L.covers_minus _ _ hsl hqo p hp, List.forall_mem_cons]
        have := mt hw.1 h
        tauto
      · rw [h2 p hp, List.forall_mem_cons]
        have := mt hw.1 h
        tauto
      · exact h3 fun x hx => hall x (List.mem_cons_of_mem _ hx)
      · exact absurd (hall q List.mem_cons_self) (mt hw.1 h)

theorem pairwise_apart {qs : List (Pwh K)} (h : qs.Pairwise (Apart C Gen)) {q q' : Pwh K} (hq : q ∈ qs) (hq' : q' ∈ qs) (hne : q ≠ q') :
    Apart C Gen q q' := by
  induction h with
  | nil => simp at hq
  | cons ha _ ih =>
    rcases List.mem_cons.1 hq with e | h1
    · rcases List.mem_cons.1 hq' with e' | h2
      · exact absurd (e.trans e'.symm) hne
      · rw [e]; exact ha _ h2
    · rcases List.mem_cons.1 hq' with e' | h2
      · rw [e']; exact fun p hp h => ha _ h1 p hp ⟨h.2, h.1⟩
      · exact ih h1 h2

/-- The result of cutting two faces against each other. -/
structure Cut (C : Cgal K) (Ok : Pwh K → Prop) (Gen : V2 K → Prop) (l r : FacePrint K) (ls rs : List (FacePrint K)) : Prop where
  lpart : ∀ f ∈ ls, PartOf C Gen f l ∧ Ok f.border
  rpart : ∀ f ∈ rs, PartOf C Gen f r ∧ Ok f.border
  cover : ∀ p, Gen p → Interior C l.border p ∨ Interior C r.border p → Ground C ls p ∨ Ground C rs p
  lapart : NoOverlap C Gen ls
  rapart : NoOverlap C Gen rs
  apart : ∀ p, Gen p → ¬ (Ground C ls p ∧ Ground C rs p)
  lwins : Gap C Gen l r → ∀ p, Gen p → Interior C l.border p → Ground C ls p
  rwins : NotBelow C Gen r l → ∃ r', rs = [r'] ∧ ∀ p, Gen p → (Interior C r'.border p ↔ Interior C r.border p)

theorem mem_unpack {s : C.PSet} {i : Nat} {pl : Plane K} {f : FacePrint K} (h : f ∈ unpack C [] s i pl) :
    f.id = i ∧ f.plane = pl ∧ f.border ∈ C.pieces s := by
  unfold unpack at h
  rw [List.nil_append, List.mem_map] at h
  obtain ⟨q, hq, rfl⟩ := h
  exact ⟨rfl, rfl, hq⟩

theorem ground_unpack {s : C.PSet} {i : Nat} {pl : Plane K} {p : V2 K} : Ground C (unpack C [] s i pl) p ↔ Covers C s p := by
  unfold Ground Covers unpack
  simp only [List.nil_append, List.mem_map]
  constructor
  · rintro ⟨_, ⟨q, hq, rfl⟩, h⟩; exact ⟨q, hq, h⟩
  · rintro ⟨q, hq, h⟩; exact ⟨_, ⟨q, hq, rfl⟩, h⟩

theorem apart_unpack (L : Lawful C Ok Good Gen) {s : C.PSet} (hs : Good s) {i : Nat} {pl : Plane K} :
    NoOverlap C Gen (unpack C [] s i pl) := by
  unfold NoOverlap unpack
  rw [List.nil_append, List.pairwise_map]
  exact L.pieces_apart s hs

theorem occludeOne_spec (L : Lawful C Ok Good Gen) {l r : FacePrint K} (hl : ValidFace Ok l) (hr : ValidFace Ok r) :
    ∃ ls rs, occludeOne C l r = .ok (ls, rs) ∧ Cut C Ok Gen l r ls rs := by
  unfold occludeOne
  by_cases he : (C.inter l.border r.border).isEmpty
  · rw [if_pos he]
    have he' : C.inter l.border r.border = [] := List.isEmpty_iff.1 he
    have hno : ∀ p, Gen p → ¬ (Interior C l.border p ∧ Interior C r.border p) := by
      intro p hp h
      have := (L.inter_iff _ _ hl.1 hr.1 p hp).2 h
      rw [he'] at this
      simp at this
    have hself : ∀ f : FacePrint K, PartOf C Gen f f := fun f => ⟨rfl, rfl, fun _ _ h => h⟩
    refine ⟨[l], [r], rfl, ?_, ?_, ?_, ?_, ?_, ?_, ?_, ?_⟩
    · intro f hf; rw [List.mem_singleton] at hf; subst hf; exact ⟨hself _, hl.1⟩
    · intro f hf; rw [List.mem_singleton] at hf; subst hf; exact ⟨hself _, hr.1⟩
    · rintro p hp (h | h)
      · exact Or.inl ⟨l, by simp, h⟩
      · exact Or.inr ⟨r, by simp, h⟩
    · exact List.pairwise_singleton _ _
    · exact List.pairwise_singleton _ _
    · rintro p hp ⟨⟨f, hf, h1⟩, ⟨g, hg, h2⟩⟩
      rw [List.mem_singleton] at hf hg; subst hf hg
      exact hno p hp ⟨h1, h2⟩
    · intro _ p hp h; exact ⟨l, by simp, h⟩
    · intro _; exact ⟨r, rfl, fun _ _ => Iff.rfl⟩
  · rw [if_neg he]
    obtain ⟨sl, sr, hcarve, g1, g2, h1, h2, h3, h4⟩ := carve_spec L hl.2 hr.2 (C.inter l.border r.border)
      (L.inter_ok _ _ hl.1 hr.1) (C.ofPwh l.border) (C.ofPwh r.border) (L.of_good _ hl.1) (L.of_good _ hr.1)
    rw [hcarve, Out.ok_bind]
    have hi := L.inter_iff _ _ hl.1 hr.1
    refine ⟨_, _, rfl, ?_, ?_, ?_, apart_unpack L g1, apart_unpack L g2, ?_, ?_, ?_⟩
    · intro f hf
      obtain ⟨e1, e2, e3⟩ := mem_unpack hf
      refine ⟨⟨e1, e2, fun p hp h => ?_⟩, L.pieces_ok _ g1 _ e3⟩
      exact (L.covers_of _ hl.1 p hp).1 ((h1 p hp).1 ⟨_, e3, h⟩).1
    · intro f hf
      obtain ⟨e1, e2, e3⟩ := mem_unpack hf
      refine ⟨⟨e1, e2, fun p hp h => ?_⟩, L.pieces_ok _ g2 _ e3⟩
      exact (L.covers_of _ hr.1 p hp).1 ((h2 p hp).1 ⟨_, e3, h⟩).1
    · intro p hp h
      rw [ground_unpack, ground_unpack, h1 p hp, h2 p hp, L.covers_of _ hl.1 p hp, L.covers_of _ hr.1 p hp]
      by_cases hb : Interior C l.border p ∧ Interior C r.border p
      · by_cases hw : ∀ q ∈ C.inter l.border r.border, Interior C q p → Wins l r q
        · exact Or.inl ⟨hb.1, fun q hq hn hi => hn (hw q hq hi)⟩
        · simp only [not_forall] at hw
          obtain ⟨q, hq, hip, hnw⟩ := hw
          refine Or.inr ⟨hb.2, fun q' hq' hw' hi' => ?_⟩
          by_cases hqq : q = q'
          · subst hqq; exact hnw hw'
          · exact pairwise_apart (L.inter_apart _ _ hl.1 hr.1) hq hq' hqq p hp ⟨hip, hi'⟩
      · have hq0 : ∀ q ∈ C.inter l.border r.border, ¬ Interior C q p := fun q hq hi' => hb ((hi p hp).1 ⟨q, hq, hi'⟩)
        rcases h with h | h
        · exact Or.inl ⟨h, fun q hq _ => hq0 q hq⟩
        · exact Or.inr ⟨h, fun q hq _ => hq0 q hq⟩
    · intro p hp h
      rw [ground_unpack, ground_unpack, h1 p hp, h2 p hp, L.covers_of _ hl.1 p hp, L.covers_of _ hr.1 p hp] at h
      obtain ⟨⟨hl', ha⟩, ⟨hr', hb⟩⟩ := h
      obtain ⟨q, hq, hip⟩ := (hi p hp).2 ⟨hl', hr'⟩
      by_cases hw : Wins l r q
      · exact hb q hq hw hip
      · exact ha q hq hw hip
    · intro hab p hp h
      rw [ground_unpack, h1 p hp, L.covers_of _ hl.1 p hp]
      refine ⟨h, fun q hq hn _ => hn ?_⟩
      have hqo := L.inter_ok _ _ hl.1 hr.1 q hq
      obtain ⟨a, _, b, _, c, _, hs⟩ := sample_ok L hqo
      exact ⟨_, hs, above_sample L hqo (above_of_gap L hqo (fun p hp h => (hi p hp).1 ⟨q, hq, h⟩) hab) hs⟩
    · intro hab
      have hsr : sr = C.ofPwh r.border := by
        refine h3 fun q hq hw => ?_
        obtain ⟨m, hs, hw⟩ := hw
        have hqo := L.inter_ok _ _ hl.1 hr.1 q hq
        exact absurd (notBelow_sample L hqo (on_of_notBelow L hqo (fun p hp h => ((hi p hp).1 ⟨q, hq, h⟩).symm) hab) hs) (not_le.2 hw)
      obtain ⟨q', hq'⟩ := L.of_one _ hr.1
      refine ⟨⟨r.id, q', r.plane⟩, ?_, fun p hp => ?_⟩
      · show unpack C [] sr r.id r.plane = _
        unfold unpack
        rw [hsr, hq']
        rfl
      · rw [← L.covers_of _ hr.1 p hp]
        unfold Covers
        rw [hq']
        simp

theorem zAt_part {f g : FacePrint K} (h : PartOf C Gen f g) (p : V2 K) : zAt f p = zAt g p := by
  unfold zAt; rw [h.2.1]

theorem part_trans {f g k : FacePrint K} (h : PartOf C Gen f g) (h' : PartOf C Gen g k) : PartOf C Gen f k :=
  ⟨h.1.trans h'.1, h.2.1.trans h'.2.1, fun p hp hi => h'.2.2 p hp (h.2.2 p hp hi)⟩

theorem part_refl (f : FacePrint K) : PartOf C Gen f f := ⟨rfl, rfl, fun _ _ h => h⟩

theorem part_valid {f g : FacePrint K} (h : PartOf C Gen f g ∧ Ok f.border) (hg : ValidFace Ok g) : ValidFace Ok f :=
  ⟨h.2, by rw [h.1.2.1]; exact hg.2⟩

/-! ### Occlusion and the loop -/

theorem forall₂_right {α β : Type} {R : α → β → Prop} {l : List α} {m : List β} (h : List.Forall₂ R l m) {b : β} (hb : b ∈ m) :
    ∃ a ∈ l, R a b := by
  induction h with
  | nil => simp at hb
  | cons h _ ih =>
    rcases List.mem_cons.1 hb with rfl | hb
    · exact ⟨_, List.mem_cons_self, h⟩
    · obtain ⟨a, ha, hR⟩ := ih hb
      exact ⟨a, List.mem_cons_of_mem _ ha, hR⟩

theorem forall₂_left {α β : Type} {R : α → β → Prop} {l : List α} {m : List β} (h : List.Forall₂ R l m) {a : α} (ha : a ∈ l) :
    ∃ b ∈ m, R a b := by
  induction h with
  | nil => simp at ha
  | cons h _ ih =>
    rcases List.mem_cons.1 ha with rfl | ha
    · exact ⟨_, List.mem_cons_self, h⟩
    · obtain ⟨b, hb, hR⟩ := ih ha
      exact ⟨b, List.mem_cons_of_mem _ hb, hR⟩

theorem ground_append {a b : List (FacePrint K)} {p : V2 K} : Ground C (a ++ b) p ↔ Ground C a p ∨ Ground C b p := by
  unfold Ground
  simp only [List.mem_append, or_and_right, exists_or]

theorem ground_cons {f : FacePrint K} {b : List (FacePrint K)} {p : V2 K} : Ground C (f :: b) p ↔ Interior C f.border p ∨ Ground C b p := by
  unfold Ground
  simp

theorem ground_flatMap {α : Type} {g : α → List (FacePrint K)} {l : List α} {p : V2 K} :
    Ground C (l.flatMap g) p ↔ ∃ a ∈ l, Ground C (g a) p := by
  unfold Ground
  simp only [List.mem_flatMap]
  constructor
  · rintro ⟨f, ⟨a, ha, hf⟩, h⟩; exact ⟨a, ha, f, hf, h⟩
  · rintro ⟨a, ha, f, hf, h⟩; exact ⟨f, ⟨a, ha, hf⟩, h⟩

theorem noOverlap_append {a b : List (FacePrint K)} : NoOverlap C Gen (a ++ b) ↔
    NoOverlap C Gen a ∧ NoOverlap C Gen b ∧ ∀ p, Gen p → ¬ (Ground C a p ∧ Ground C b p) := by
  unfold NoOverlap
  rw [List.pairwise_append]
  refine and_congr_right fun _ => and_congr_right fun _ => ?_
  constructor
  · rintro h p hp ⟨⟨f, hf, h1⟩, ⟨g, hg, h2⟩⟩
    exact h f hf g hg p hp ⟨h1, h2⟩
  · intro h f hf g hg p hp h'
    exact h p hp ⟨⟨f, hf, h'.1⟩, ⟨g, hg, h'.2⟩⟩

theorem occlusion_spec (L : Lawful C Ok Good Gen) {fs : List (FacePrint K)} (hfs : ∀ f ∈ fs, ValidFace Ok f) {l : FacePrint K}
    (hl : ValidFace Ok l) :
    ∃ ls rs, occlusion C fs l = .ok (ls, rs) ∧ (∀ f ∈ ls, PartOf C Gen f l ∧ Ok f.border) ∧
      (∀ f ∈ rs, ∃ g ∈ fs, PartOf C Gen f g ∧ Ok f.border) ∧
      (∀ p, Gen p → Ground C fs p → Ground C ls p ∨ Ground C rs p) ∧
      (fs ≠ [] → ∀ p, Gen p → Interior C l.border p → Ground C ls p ∨ Ground C rs p) ∧
      (∀ s, fs = [s] → Cut C Ok Gen l s ls rs) := by
  unfold occlusion
  rw [filter_valid L hfs]
  have hmap : ∃ parts, Out.mapM (occludeOne C l) fs = .ok parts ∧
      List.Forall₂ (fun r (t : List (FacePrint K) × List (FacePrint K)) => Cut C Ok Gen l r t.1 t.2) fs parts := by
    induction fs with
    | nil => exact ⟨[], rfl, .nil⟩
    | cons r fs ih =>
      obtain ⟨ls, rs, he, hc⟩ := occludeOne_spec L hl (hfs r List.mem_cons_self)
      obtain ⟨parts, hp, hf⟩ := ih fun f hf => hfs f (List.mem_cons_of_mem _ hf)
      exact ⟨(ls, rs) :: parts, by rw [Out.mapM_cons, he, Out.ok_bind, hp, Out.ok_bind], .cons hc hf⟩
  obtain ⟨parts, hp, hf⟩ := hmap
  rw [hp, Out.ok_bind]
  refine ⟨_, _, rfl, ?_, ?_, ?_, ?_, ?_⟩
  · intro f hmem
    obtain ⟨t, ht, hft⟩ := List.mem_flatMap.1 hmem
    obtain ⟨r, hr, hc⟩ := forall₂_right hf ht
    exact hc.lpart f hft
  · intro f hmem
    obtain ⟨t, ht, hft⟩ := List.mem_flatMap.1 hmem
    obtain ⟨r, hr, hc⟩ := forall₂_right hf ht
    exact ⟨r, hr, hc.rpart f hft⟩
  · rintro p hg ⟨r, hr, hi⟩
    obtain ⟨t, ht, hc⟩ := forall₂_left hf hr
    rw [ground_flatMap, ground_flatMap]
    exact (hc.cover p hg (Or.inr hi)).imp (fun h => ⟨t, ht, h⟩) (fun h => ⟨t, ht, h⟩)
  · intro hne p hg hi
    obtain ⟨r, hr⟩ := List.exists_mem_of_ne_nil _ hne
    obtain ⟨t, ht, hc⟩ := forall₂_left hf hr
    rw [ground_flatMap, ground_flatMap]
    exact (hc.cover p hg (Or.inl hi)).imp (fun h => ⟨t, ht, h⟩) (fun h => ⟨t, ht, h⟩)
  · rintro s rfl
    cases hf with
    | cons hc hnil =>
      cases hnil
      simpa using hc

/-- The loop: what remains are parts of the faces put in, and ground is only lost when nothing remains of the new face. -/
theorem addLoop_spec (L : Lawful C Ok Good Gen) : ∀ (rs lf : List (FacePrint K)), (∀ f ∈ lf, ValidFace Ok f) → (∀ r ∈ rs, ValidFace Ok r) →
    ∃ res lf', addLoop C lf rs = .ok (res, lf') ∧
      (∀ f ∈ res, ∃ r ∈ rs, PartOf C Gen f r ∧ Ok f.border) ∧ (∀ f ∈ lf', ∃ g ∈ lf, PartOf C Gen f g ∧ Ok f.border) ∧
      (lf' ≠ [] → ∀ p, Gen p → Ground C lf p ∨ Ground C rs p → Ground C res p ∨ Ground C lf' p) := by
  intro rs
  induction rs with
  | nil =>
    intro lf hlf _
    refine ⟨[], lf, rfl, by simp, fun f hf => ⟨f, hf, part_refl f, (hlf f hf).1⟩, ?_⟩
    rintro _ p _ (h | ⟨f, hf, _⟩)
    · exact Or.inr h
    · simp at hf
  | cons r rs ih =>
    intro lf hlf hrs
    obtain ⟨ls, rs1, ho, hl1, hr1, hc1, hc2, _⟩ := occlusion_spec L hlf (hrs r List.mem_cons_self)
    have hv : ∀ f ∈ rs1, ValidFace Ok f := fun f hf => by
      obtain ⟨g, hg, hp⟩ := hr1 f hf
      exact part_valid hp (hlf g hg)
    obtain ⟨res, lf', he, h1, h2, h3⟩ := ih rs1 hv fun x hx => hrs x (List.mem_cons_of_mem _ hx)
    refine ⟨ls ++ res, lf', ?_, ?_, ?_, ?_⟩
    · unfold addLoop
      rw [ho, Out.ok_bind, he, Out.ok_bind]
    · intro f hf
      rcases List.mem_append.1 hf with hf | hf
      · exact ⟨r, List.mem_cons_self, hl1 f hf⟩
      · obtain ⟨x, hx, hp⟩ := h1 f hf
        exact ⟨x, List.mem_cons_of_mem _ hx, hp⟩
    · intro f hf
      obtain ⟨g, hg, hp⟩ := h2 f hf
      obtain ⟨k, hk, hp'⟩ := hr1 g hg
      exact ⟨k, hk, part_trans hp.1 hp'.1, hp.2⟩
    · intro hne p hp h
      have hrs1 : rs1 ≠ [] := by
        rintro rfl
        obtain ⟨f, hf⟩ := List.exists_mem_of_ne_nil _ hne
        obtain ⟨g, hg, _⟩ := h2 f hf
        simp at hg
      have hlfne : lf ≠ [] := by
        rintro rfl
        obtain ⟨f, hf⟩ := List.exists_mem_of_ne_nil _ hrs1
        obtain ⟨g, hg, _⟩ := hr1 f hf
        simp at hg
      rw [ground_append]
      rw [ground_cons] at h
      have h' : Ground C ls p ∨ Ground C rs1 p ∨ Ground C rs p := by
        rcases h with h | h | h
        · rcases hc1 p hp h with h | h
          · exact Or.inl h
          · exact Or.inr (Or.inl h)
        · rcases hc2 hlfne p hp h with h | h
          · exact Or.inl h
          · exact Or.inr (Or.inl h)
        · exact Or.inr (Or.inr h)
      rcases h' with h' | h'
      · exact Or.inl (Or.inl h')
      · rcases h3 hne p hp h' with h | h
        · exact Or.inl (Or.inr h)
        · exact Or.inr h

/-- Before each existing face is handled, what remains of the new face is in one piece. -/
def Unsplit (C : Cgal K) (l : FacePrint K) (rs : List (FacePrint K)) : Prop :=
  ∀ k < rs.length, ∃ res m, addLoop C [l] (rs.take k) = .ok (res, [m])

/-- Two faces are comparable: where they are above each other the first is higher, by some gap, or the second is not lower. Nothing is said of their planes elsewhere. -/
def Comparable (C : Cgal K) (Gen : V2 K → Prop) (r l : FacePrint K) : Prop := Gap C Gen r l ∨ NotBelow C Gen l r

/-- The loop on a face that stays in one piece and is comparable to the existing ones. -/
theorem addLoop_envelope (L : Lawful C Ok Good Gen) : ∀ (rs : List (FacePrint K)) (l : FacePrint K), ValidFace Ok l →
    (∀ r ∈ rs, ValidFace Ok r) → (∀ r ∈ rs, Comparable C Gen r l) → NoOverlap C Gen rs → Unsplit C l rs → 
    ∃ res lf', addLoop C [l] rs = .ok (res, lf') ∧ (∀ f ∈ res ++ lf', Ok f.border) ∧
      (∀ f ∈ res, ∃ r ∈ rs, PartOf C Gen f r) ∧ (∀ f ∈ lf', PartOf C Gen f l) ∧
      (∀ p, Gen p → Interior C l.border p ∨ Ground C rs p → Ground C (res ++ lf') p) ∧
      NoOverlap C Gen (res ++ lf') ∧
      (∀ f ∈ res, ∀ p, Gen p → Interior C f.border p → Interior C l.border p → zAt l p ≤ zAt f p) ∧
      (∀ f ∈ lf', ∀ p, Gen p → Interior C f.border p → ∀ r ∈ rs, Interior C r.border p → zAt r p ≤ zAt f p) := by
  intro rs
  induction rs with
  | nil =>
    intro l hl _ _ _ _
    refine ⟨[], [l], rfl, ?_, by simp, ?_, ?_, List.pairwise_singleton _ _, by simp, by simp⟩
    · intro f hf; simp at hf; subst hf; exact hl.1
    · intro f hf; simp at hf; subst hf; exact part_refl _
    · rintro p hp (h | ⟨f, hf, _⟩)
      · exact ⟨l, by simp, h⟩
      · simp at hf
  | cons r rs ih =>
    intro l hl hrs hcmp hno hun
    have hrv := hrs r List.mem_cons_self
    have hno' := List.pairwise_cons.1 hno
    obtain ⟨ls, rs1, ho, _, _, _, _, hcut⟩ := occlusion_spec L (fs := [l]) (by simpa using hl) hrv
    have hcut := hcut l rfl
    have hcr := hcmp r List.mem_cons_self
    -- heights of the first cut
    have hz1 : ∀ f ∈ ls, ∀ p, Gen p → Interior C f.border p → Interior C l.border p → zAt l p ≤ zAt f p := by
      intro f hf p hp hi hil
      have hir := (hcut.lpart f hf).1.2.2 p hp hi
      rw [zAt_part (hcut.lpart f hf).1]
      rcases hcr with h | h
      · obtain ⟨e, he, h⟩ := h
        have := h p hp hir hil
        linarith
      · obtain ⟨l', hl', hi'⟩ := hcut.rwins h
        exact absurd ⟨⟨f, hf, hi⟩, ⟨l', by rw [hl']; simp, (hi' p hp).2 hil⟩⟩ (hcut.apart p hp)
    have hz2 : ∀ f ∈ rs1, ∀ p, Gen p → Interior C f.border p → Interior C r.border p → zAt r p ≤ zAt f p := by
      intro f hf p hp hi hir
      have hil := (hcut.rpart f hf).1.2.2 p hp hi
      rw [zAt_part (hcut.rpart f hf).1]
      rcases hcr with h | h
      · exact absurd ⟨hcut.lwins h p hp hir, ⟨f, hf, hi⟩⟩ (hcut.apart p hp)
      · exact h p hp hil hir
    by_cases hrs0 : rs = []
    · subst hrs0
      refine ⟨ls, rs1, ?_, ?_, ?_, fun f hf => (hcut.rpart f hf).1, ?_, ?_, hz1, ?_⟩
      · unfold addLoop
        rw [ho, Out.ok_bind]
        unfold addLoop
        rw [Out.ok_bind, List.append_nil]
      · intro f hf
        rcases List.mem_append.1 hf with hf | hf
        · exact (hcut.lpart f hf).2
        · exact (hcut.rpart f hf).2
      · exact fun f hf => ⟨r, List.mem_cons_self, (hcut.lpart f hf).1⟩
      · intro p hp h
        rw [ground_append]
        rw [ground_cons] at h
        refine hcut.cover p hp ?_
        rcases h with h | h | ⟨f, hf, _⟩
        · exact Or.inr h
        · exact Or.inl h
        · simp at hf
      · exact noOverlap_append.2 ⟨hcut.lapart, hcut.rapart, hcut.apart⟩
      · intro f hf p hp hi r' hr'
        simp at hr'; subst hr'
        exact hz2 f hf p hp hi
    · have hlen : 0 < rs.length := List.length_pos_iff.2 hrs0
      obtain ⟨res1, m, hm⟩ := hun 1 (by simpa using hlen)
      have hrs1 : rs1 = [m] := by
        simp only [List.take_succ_cons, List.take_zero] at hm
        unfold addLoop at hm
        rw [ho, Out.ok_bind] at hm
        unfold addLoop at hm
        rw [Out.ok_bind] at hm
        simp only [Out.ok.injEq, Prod.mk.injEq] at hm
        exact hm.2
      subst hrs1
      have hmp := hcut.rpart m (by simp)
      have hmv : ValidFace Ok m := part_valid hmp hl
      have hun' : Unsplit C m rs := by
        intro k hk
        obtain ⟨res, n, hn⟩ := hun (k + 1) (by simpa using hk)
        rw [List.take_succ_cons] at hn
        unfold addLoop at hn
        rw [ho, Out.ok_bind] at hn
        obtain ⟨u, hu, he⟩ := Out.bind_eq_ok.1 hn
        simp only [Out.ok.injEq, Prod.mk.injEq] at he
        exact ⟨u.1, n, by rw [hu, ← he.2]⟩
      have hcmp' : ∀ r ∈ rs, Comparable C Gen r m := by
        intro x hx
        rcases hcmp x (List.mem_cons_of_mem _ hx) with ⟨e, he, h⟩ | h
        · refine Or.inl ⟨e, he, fun p hp h1 h2 => ?_⟩
          rw [zAt_part hmp.1]
          exact h p hp h1 (hmp.1.2.2 p hp h2)
        · refine Or.inr fun p hp h1 h2 => ?_
          rw [zAt_part hmp.1]
          exact h p hp (hmp.1.2.2 p hp h1) h2
      obtain ⟨res, lf', he, h0, h1, h2, h3, h4, h5, h6⟩ := ih m hmv (fun x hx => hrs x (List.mem_cons_of_mem _ hx)) hcmp' hno'.2 hun'
      refine ⟨ls ++ res, lf', ?_, ?_, ?_, fun f hf => part_trans (h2 f hf) hmp.1, ?_, ?_, ?_, ?_⟩
      · unfold addLoop
        rw [ho, Out.ok_bind, he, Out.ok_bind]
      · intro f hf
        rw [List.append_assoc] at hf
        rcases List.mem_append.1 hf with hf | hf
        · exact (hcut.lpart f hf).2
        · exact h0 f hf
      · intro f hf
        rcases List.mem_append.1 hf with hf | hf
        · exact ⟨r, List.mem_cons_self, (hcut.lpart f hf).1⟩
        · obtain ⟨x, hx, hp⟩ := h1 f hf
          exact ⟨x, List.mem_cons_of_mem _ hx, hp⟩
      · intro p hp h
        rw [List.append_assoc, ground_append]
        rw [ground_cons] at h
        have h' : Ground C ls p ∨ Interior C m.border p ∨ Ground C rs p := by
          rcases h with h | h | h
          · rcases hcut.cover p hp (Or.inr h) with h | ⟨f, hf, h⟩
            · exact Or.inl h
            · simp at hf; subst hf; exact Or.inr (Or.inl h)
          · rcases hcut.cover p hp (Or.inl h) with h | ⟨f, hf, h⟩
            · exact Or.inl h
            · simp at hf; subst hf; exact Or.inr (Or.inl h)
          · exact Or.inr (Or.inr h)
        rcases h' with h' | h'
        · exact Or.inl h'
        · exact Or.inr (h3 p hp h')
      · rw [List.append_assoc]
        refine noOverlap_append.2 ⟨hcut.lapart, h4, ?_⟩
        rintro p hp ⟨⟨f, hf, hi⟩, hg⟩
        have hir := (hcut.lpart f hf).1.2.2 p hp hi
        rcases ground_append.1 hg with ⟨g, hg, hig⟩ | ⟨g, hg, hig⟩
        · obtain ⟨x, hx, hxp⟩ := h1 g hg
          exact hno'.1 x hx p hp ⟨hir, hxp.2.2 p hp hig⟩
        · exact hcut.apart p hp ⟨⟨f, hf, hi⟩, ⟨m, by simp, (h2 g hg).2.2 p hp hig⟩⟩
      · intro f hf p hp hi hil
        rcases List.mem_append.1 hf with hf | hf
        · exact hz1 f hf p hp hi hil
        · by_cases him : Interior C m.border p
          · rw [← zAt_part hmp.1]
            exact h5 f hf p hp hi him
          · -- the point went to the first existing face, which does not meet the others
            obtain ⟨x, hx, hxp⟩ := h1 f hf
            have hix := hxp.2.2 p hp hi
            rcases hcut.cover p hp (Or.inr hil) with ⟨g, hg, hig⟩ | ⟨g, hg, hig⟩
            · exact absurd ⟨(hcut.lpart g hg).1.2.2 p hp hig, hix⟩ (hno'.1 x hx p hp)
            · simp at hg; subst hg; exact absurd hig him
      · intro f hf p hp hi r' hr' hir'
        rcases List.mem_cons.1 hr' with rfl | hr'
        · rw [zAt_part (h2 f hf)]
          exact hz2 m (by simp) p hp ((h2 f hf).2.2 p hp hi) hir'
        · exact h6 f hf p hp hi r' hr' hir'

end City.Spec
