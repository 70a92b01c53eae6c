import Verif.Lemmas.Raster
import Verif.Props.BrickPrint
/-!
C50-C56: footprints and raster prints.
-/
set_option linter.unusedSectionVars false
namespace City.Props
open City City.Spec FacePrint

section
variable {K : Type} [Field K] [LinearOrder K] [IsStrictOrderedRing K]
variable {C : Cgal K} {Ok : Pwh K → Prop} {Good : C.PSet → Prop} {Gen : V2 K → Prop}

/-! ### C50 -/

/-- Adding the footprints of a list, one after the other: `save_scene_prints` and every other history of `+=`. -/
def addAll (C : Cgal K) : List (FootPrint K) → FootPrint K → Out (FootPrint K)
  | [], a => .ok a
  | o :: os, a => do
    let a' ← a.add C o
    addAll C os a'

/-- A footprint with valid faces. -/
def ValidPrint (Ok : Pwh K → Prop) (a : FootPrint K) : Prop := ∀ f ∈ a.brick.faces, ValidFace Ok f

/-- C50 as stated: equal references: the ground of the sum is the union. False: `C50_refuted`. -/
def C50_full : Prop := ∀ (C : Cgal ℚ) (Ok : Pwh ℚ → Prop) (Good : C.PSet → Prop) (Gen : V2 ℚ → Prop), Lawful C Ok Good Gen →
  ∀ a b : FootPrint ℚ, ValidPrint Ok a → ValidPrint Ok b → NoOverlap C Gen a.brick.faces → NoOverlap C Gen b.brick.faces →
    a.ref = b.ref → a.epsg = b.epsg →
    ∃ r, a.add C b = .ok r ∧ r.ref = a.ref ∧ r.epsg = a.epsg ∧
      ∀ p, Gen p → (Ground C r.brick.faces p ↔ Ground C a.brick.faces p ∨ Ground C b.brick.faces p)

theorem sides_valid : ∀ f ∈ [sideA (-10), sideB (-10), other], ValidFace RectOk f := by
  intro f hf
  simp only [List.mem_cons, List.not_mem_nil, or_false] at hf
  rcases hf with rfl | rfl | rfl
  · exact sideA_valid _
  · exact sideB_valid _
  · exact other_valid

theorem sides_apart : NoOverlap rectCgal RectGen [sideA (-10), sideB (-10), other] := by
  have hA : ∀ p, Interior rectCgal (sideA (-10)).border p → p.x < 6 := fun p h =>
    ((slab_interior 1 (-1) (-1) 6 10 (-10) (by norm_num) (by norm_num) p).1 h).2.1
  have hB : ∀ p, Interior rectCgal (sideB (-10)).border p → 6 < p.x ∧ p.x < 10 := fun p h =>
    ⟨((slab_interior 2 6 (-1) 10 10 (-10) (by norm_num) (by norm_num) p).1 h).1,
      ((slab_interior 2 6 (-1) 10 10 (-10) (by norm_num) (by norm_num) p).1 h).2.1⟩
  have hO : ∀ p, Interior rectCgal other.border p → 20 < p.x := fun p h =>
    ((slab_interior 3 20 0 21 1 1 (by norm_num) (by norm_num) p).1 h).1
  unfold NoOverlap
  rw [List.pairwise_cons, List.pairwise_cons, List.pairwise_cons]
  refine ⟨?_, ?_, by simp, List.Pairwise.nil⟩
  · intro f hf
    simp only [List.mem_cons, List.not_mem_nil, or_false] at hf
    rcases hf with rfl | rfl
    · rintro p _ ⟨h1, h2⟩
      have := hA p h1; have := hB p h2; linarith
    · rintro p _ ⟨h1, h2⟩
      have := hA p h1; have := hO p h2; linarith
  · intro f hf
    simp only [List.mem_cons, List.not_mem_nil, or_false] at hf
    subst hf
    rintro p _ ⟨h1, h2⟩
    have := hB p h1; have := hO p h2; linarith

/-- C50 is false for the ground: the sum is computed by the insertions of C44, and loses the face `other`. -/
theorem C50_refuted : ¬ C50_full := by
  intro h
  obtain ⟨r, hr, _, _, hg⟩ := h rectCgal RectOk RectGood RectGen rect_lawful
    ⟨[], ⟨0, 0, 0⟩, 2154, ⟨some ⟨-1, -1, 21, 10⟩, [sideA (-10), sideB (-10), other]⟩⟩
    ⟨[], ⟨0, 0, 0⟩, 2154, ⟨some ⟨0, 0, 9, 9⟩, [inside (-15)]⟩⟩ sides_valid (by
      intro f hf
      have hf' : f ∈ [inside (-15)] := hf
      rw [List.mem_singleton] at hf'
      subst hf'
      exact inside_valid _) sides_apart (by unfold NoOverlap; simp) rfl rfl
  have hl : (⟨[], ⟨0, 0, 0⟩, 2154, ⟨some ⟨-1, -1, 21, 10⟩, [sideA (-10), sideB (-10), other]⟩⟩ : FootPrint ℚ).add rectCgal
      ⟨[], ⟨0, 0, 0⟩, 2154, ⟨some ⟨0, 0, 9, 9⟩, [inside (-15)]⟩⟩ =
      .ok ⟨[], ⟨0, 0, 0⟩, 2154, ⟨some ⟨-1, -1, 21, 10⟩, [sideA (-10), sideB (-10)]⟩⟩ := by decide +kernel
  rw [hl] at hr
  cases hr
  obtain ⟨f, hf, hi⟩ := (hg ⟨((20 : ℤ) : ℚ) + 1 / 2, ((0 : ℤ) : ℚ) + 1 / 2⟩ (half_gen 20 0)).2
    (Or.inl ⟨other, by simp, (slab_interior 3 20 0 21 1 1 (by norm_num) (by norm_num) _).2 (by norm_num)⟩)
  have hf' : f ∈ [sideA (-10), sideB (-10)] := hf
  simp only [List.mem_cons, List.not_mem_nil, or_false] at hf'
  rcases hf' with rfl | rfl
  · have := (slab_interior 1 (-1) (-1) 6 10 (-10) (by norm_num) (by norm_num) _).1 hi
    norm_num at this
  · have := (slab_interior 2 6 (-1) 10 10 (-10) (by norm_num) (by norm_num) _).1 hi
    norm_num at this

/-- C48: `==` of footprints holds exactly when the reference points and the EPSG codes are the same and the faces of one are, in some order, equal to those of
the other. -/
theorem C48_footprint (a b : FootPrint K) : (a.eq b = true ↔ a.ref = b.ref ∧ a.epsg = b.epsg ∧
    ∃ fs, fs.Perm b.brick.faces ∧ List.Forall₂ (fun f g => f.eq g = true) a.brick.faces fs) := by
  unfold FootPrint.eq
  rw [Bool.and_eq_true, Bool.and_eq_true, decide_eq_true_eq, decide_eq_true_eq, C48_eq_iff, and_assoc]

/-- C48: `==` of footprints is an equivalence relation. -/
theorem C48_footprint_equivalence : Equivalence fun a b : FootPrint K => a.eq b = true := by
  have h : ∀ a b : FootPrint K, a.eq b = true ↔ a.ref = b.ref ∧ a.epsg = b.epsg ∧ a.brick.eq b.brick = true := fun a b => by
    unfold FootPrint.eq
    rw [Bool.and_eq_true, Bool.and_eq_true, decide_eq_true_eq, decide_eq_true_eq, and_assoc]
  refine ⟨fun a => (h a a).2 ⟨rfl, rfl, C48_equivalence.refl _⟩, fun {a b} e => ?_, fun {a b c} e e' => ?_⟩
  · obtain ⟨e1, e2, e3⟩ := (h a b).1 e
    exact (h b a).2 ⟨e1.symm, e2.symm, C48_equivalence.symm e3⟩
  · obtain ⟨e1, e2, e3⟩ := (h a b).1 e
    obtain ⟨f1, f2, f3⟩ := (h b c).1 e'
    exact (h a c).2 ⟨e1.trans f1, e2.trans f2, C48_equivalence.trans e3 f3⟩

/-- C50: a mismatch always throws, before anything is changed, and nothing else is a logic error of the operation itself: for every library
and all footprints. -/
theorem C50_mismatch (C : Cgal K) (a b : FootPrint K) : (a.brick.faces ≠ [] ∧ (a.ref ≠ b.ref ∨ a.epsg ≠ b.epsg) →
    a.addInPlace C b = (a, .thrown .logicError)) ∧ (a.brick.faces = [] → a.addInPlace C b = (b, .ok ())) := by
  unfold FootPrint.addInPlace Brick.isEmpty
  constructor
  · rintro ⟨h1, h2⟩
    rw [if_neg (by simpa using h1), if_pos h2]
  · intro h
    rw [if_pos (by simpa using h)]

/-- The operator in place and the sum agree. -/
theorem C50_in_place (C : Cgal K) (a b r : FootPrint K) : a.add C b = .ok r ↔ a.addInPlace C b = (r, .ok ()) := by
  unfold FootPrint.add FootPrint.addInPlace
  split
  · constructor <;> intro h <;> cases h <;> rfl
  · split
    · constructor <;> intro h <;> cases h
    · cases a.brick.addBrick C b.brick with
      | ok c => constructor <;> intro h <;> cases h <;> rfl
      | thrown e => constructor <;> intro h <;> cases h
      | ub => constructor <;> intro h <;> cases h

theorem addFaces_valid (L : Lawful C Ok Good Gen) : ∀ (fs : List (FacePrint K)) (b : Brick K), (∀ f ∈ fs, ValidFace Ok f) →
    b.addFaces C fs = build C fs b := by
  intro fs
  induction fs with
  | nil => intro b _; rfl
  | cons f fs ih =>
    intro b hfs
    have hk : (!f.isEmpty && !f.isDegenerate C) = true := by
      have := keep_valid L (hfs f List.mem_cons_self)
      unfold Brick.keep at this
      rw [Bool.not_or] at this
      exact this
    unfold Brick.addFaces build
    rw [if_pos hk]
    congr 1
    funext b'
    exact ih b' fun g hg => hfs g (List.mem_cons_of_mem _ hg)

/-- The sum of two brick prints with valid faces is the insertion of the faces of the second in the first. -/
theorem addBrick_valid (L : Lawful C Ok Good Gen) (b o : Brick K) (hb : ∀ f ∈ b.faces, ValidFace Ok f) (ho : ∀ f ∈ o.faces, ValidFace Ok f) :
    ∃ c, b.addBrick C o = .ok c ∧ build C o.faces b = .ok c ∧ (∀ f ∈ c.faces, ValidFace Ok f) ∧
      ∀ f ∈ c.faces, ∃ g ∈ b.faces ++ o.faces, PartOf C Gen f g := by
  obtain ⟨c, h1, h2, h3⟩ := build_spec L o.faces b b.faces ho hb fun f hf => ⟨f, hf, part_refl f⟩
  refine ⟨c, ?_, h1, h2, h3⟩
  have hfb : b.filter C = b := by unfold Brick.filter; rw [filter_valid L hb]
  have hfc : c.filter C = c := by unfold Brick.filter; rw [filter_valid L h2]
  unfold Brick.addBrick
  rw [hfb, addFaces_valid L _ _ ho, h1, Out.ok_bind, hfc]

theorem noOverlap_ne {fs : List (FacePrint K)} (h : NoOverlap C Gen fs) {f g : FacePrint K} (hf : f ∈ fs) (hg : g ∈ fs) (hne : f ≠ g) :
    Apart C Gen f.border g.border := by
  induction fs with
  | nil => simp at hf
  | cons a fs ih =>
    obtain ⟨h1, h2⟩ := List.pairwise_cons.1 h
    rcases List.mem_cons.1 hf with rfl | hf
    · rcases List.mem_cons.1 hg with rfl | hg
      · exact absurd rfl hne
      · exact h1 g hg
    · rcases List.mem_cons.1 hg with rfl | hg
      · exact fun p hp hh => h1 f (by assumption) p hp ⟨hh.2, hh.1⟩
      · exact ih h2 (by assumption) hg

/-- The loop of an insertion does not lose everything. -/
theorem addLoop_ne_nil (L : Lawful C Ok Good Gen) : ∀ (rs lf : List (FacePrint K)), (∀ f ∈ lf, ValidFace Ok f) → (∀ r ∈ rs, ValidFace Ok r) →
    lf ≠ [] → ∀ res lf', Brick.addLoop C lf rs = .ok (res, lf') → res ++ lf' ≠ [] := by
  intro rs
  induction rs with
  | nil => intro lf _ _ hne res lf' h; cases h; simpa using hne
  | cons r rs ih =>
    intro lf hlf hrs hne res lf' h
    obtain ⟨ls, rs1, ho, hl1, hr1, hc1, hc2, _⟩ := occlusion_spec L hlf (hrs r List.mem_cons_self)
    have hv : ∀ f ∈ rs1, ValidFace Ok f := fun f hf => by
      obtain ⟨g, hg, hp⟩ := hr1 f hf
      exact part_valid hp (hlf g hg)
    unfold Brick.addLoop at h
    rw [ho, Out.ok_bind] at h
    obtain ⟨⟨res1, lf1⟩, h1, h2⟩ := Out.bind_eq_ok.1 h
    cases h2
    by_cases hrs1 : rs1 = []
    · obtain ⟨p, hp, hi⟩ := L.inner r.border (hrs r List.mem_cons_self).1
      rcases hc2 hne p hp hi with ⟨f, hf, _⟩ | ⟨f, hf, _⟩
      · intro hnil
        rw [List.append_assoc] at hnil
        have hls : ls = [] := (List.append_eq_nil_iff.1 hnil).1
        rw [hls] at hf
        simp at hf
      · rw [hrs1] at hf; simp at hf
    · have := ih rs1 hv (fun x hx => hrs x (List.mem_cons_of_mem _ hx)) hrs1 res1 lf1 h1
      intro hnil
      rw [List.append_assoc] at hnil
      exact this (List.append_eq_nil_iff.1 hnil).2

theorem addFace_ne_nil (L : Lawful C Ok Good Gen) {b b' : Brick K} (hb : ∀ f ∈ b.faces, ValidFace Ok f) {l : FacePrint K}
    (hl : ValidFace Ok l) (h : b.addFace C l = .ok b') : b'.faces ≠ [] := by
  unfold Brick.addFace at h
  split at h
  · cases h; simp
  · rename_i hne
    split at h
    · cases h; simp
    · obtain ⟨u, _, h⟩ := Out.bind_eq_ok.1 h
      split at h
      · cases h; simpa using hne
      · obtain ⟨t, ht, h⟩ := Out.bind_eq_ok.1 h
        cases h
        exact addLoop_ne_nil L b.faces [l] (by simpa using hl) hb (by simp) t.1 t.2 ht

theorem build_ne_nil (L : Lawful C Ok Good Gen) : ∀ (fs : List (FacePrint K)) (b b' : Brick K), (∀ f ∈ fs, ValidFace Ok f) →
    (∀ f ∈ b.faces, ValidFace Ok f) → (fs ≠ [] ∨ b.faces ≠ []) → build C fs b = .ok b' → b'.faces ≠ [] := by
  intro fs
  induction fs with
  | nil => intro b b' _ _ hne h; cases h; simpa using hne
  | cons f fs ih =>
    intro b b' hfs hb _ h
    unfold build at h
    obtain ⟨b1, h1, h2⟩ := Out.bind_eq_ok.1 h
    obtain ⟨b1', k1, _, k2, _⟩ := addFace_spec L hb (hfs f List.mem_cons_self)
    rw [k1] at h1
    cases h1
    exact ih b1 b' (fun g hg => hfs g (List.mem_cons_of_mem _ hg)) (fun g hg => (k2 g hg).2)
      (Or.inr (addFace_ne_nil L hb (hfs f List.mem_cons_self) k1)) h2

theorem add_ne_nil (L : Lawful C Ok Good Gen) (a b r : FootPrint K) (ha : ValidPrint Ok a) (hb : ValidPrint Ok b)
    (hne : a.brick.faces ≠ []) (h : a.add C b = .ok r) : r.brick.faces ≠ [] := by
  unfold FootPrint.add Brick.isEmpty at h
  rw [if_neg (by simpa using hne)] at h
  split at h
  · cases h
  · obtain ⟨c, h1, h2⟩ := Out.bind_eq_ok.1 h
    cases h2
    obtain ⟨c', k1, k2, _⟩ := addBrick_valid L a.brick b.brick ha hb
    rw [k1] at h1
    cases h1
    exact build_ne_nil L b.brick.faces a.brick c hb ha (Or.inr hne) k2

/-- C50: the sum of footprints with the same reference is defined, keeps name, reference and EPSG code, and has no ground of its own: each
face is a part of a face of one of the two. The part that holds: that the ground is the whole union fails (`C50_refuted`). -/
theorem C50_sum_partial (L : Lawful C Ok Good Gen) (a b : FootPrint K) (ha : ValidPrint Ok a) (hb : ValidPrint Ok b)
    (hne : a.brick.faces ≠ []) (hr : a.ref = b.ref) (he : a.epsg = b.epsg) :
    ∃ r, a.add C b = .ok r ∧ r.name = a.name ∧ r.ref = a.ref ∧ r.epsg = a.epsg ∧ ValidPrint Ok r ∧
      (∀ f ∈ r.brick.faces, ∃ g ∈ a.brick.faces ++ b.brick.faces, PartOf C Gen f g) ∧
      (∀ p, Gen p → Ground C r.brick.faces p → Ground C a.brick.faces p ∨ Ground C b.brick.faces p) ∧
      (FitsAll C Gen b.brick.faces a.brick → NoOverlap C Gen a.brick.faces →
        ∀ p, Gen p → (Ground C r.brick.faces p ↔ Ground C a.brick.faces p ∨ Ground C b.brick.faces p)) := by
  obtain ⟨c, h1, h2, h3, h4⟩ := addBrick_valid L a.brick b.brick ha hb
  refine ⟨{ a with brick := c }, ?_, rfl, rfl, rfl, h3, h4, ?_, ?_⟩
  · unfold FootPrint.add Brick.isEmpty
    rw [if_neg (by simpa using hne), if_neg (by simp [hr, he]), h1]
    rfl
  · rintro p hp ⟨f, hf, hi⟩
    obtain ⟨g, hg, hpg⟩ := h4 f hf
    rcases List.mem_append.1 hg with hg | hg
    · exact Or.inl ⟨g, hg, hpg.2.2 p hp hi⟩
    · exact Or.inr ⟨g, hg, hpg.2.2 p hp hi⟩
  · intro hfit hno p hp
    obtain ⟨c', k1, _, k3⟩ := build_envelope L b.brick.faces a.brick a.brick.faces hb ha
      ⟨fun f hf => ⟨f, hf, part_refl f⟩, fun _ _ => Iff.rfl, hno, fun f hf p hp hi g hg hig => by
        by_cases hfg : f = g
        · rw [hfg]
        · exfalso
          exact noOverlap_ne hno hf hg hfg p hp ⟨hi, hig⟩⟩ hfit
    rw [h2] at k1
    cases k1
    rw [k3.ground p hp, ground_append, or_comm]
    have : Ground C b.brick.faces.reverse p ↔ Ground C b.brick.faces p := by unfold Ground; simp
    rw [this]

/-- C50, histories: whatever footprints are added to an empty one, when the sum returns, all footprints from the first one that is not empty
on have the reference and EPSG code of the result. -/
theorem C50_history (L : Lawful C Ok Good Gen) (os : List (FootPrint K)) (hos : ∀ o ∈ os, ValidPrint Ok o) (a r : FootPrint K)
    (ha : ValidPrint Ok a) (h : addAll C os a = .ok r) :
    (a.brick.faces ≠ [] → r.ref = a.ref ∧ r.epsg = a.epsg ∧ ∀ o ∈ os, o.ref = r.ref ∧ o.epsg = r.epsg) ∧
    (∀ os1 o os2, os = os1 ++ o :: os2 → o.brick.faces ≠ [] → a.brick.faces = [] → (∀ o' ∈ os1, o'.brick.faces = []) →
      ∀ o' ∈ o :: os2, o'.ref = r.ref ∧ o'.epsg = r.epsg) := by
  have key : ∀ (os : List (FootPrint K)), (∀ o ∈ os, ValidPrint Ok o) → ∀ a r : FootPrint K, ValidPrint Ok a → addAll C os a = .ok r →
      a.brick.faces ≠ [] →
      r.ref = a.ref ∧ r.epsg = a.epsg ∧ ∀ o ∈ os, o.ref = r.ref ∧ o.epsg = r.epsg := by
    intro os
    induction os with
    | nil => intro _ a r _ h _; cases h; exact ⟨rfl, rfl, by simp⟩
    | cons o os ih =>
      intro hos a r ha h hne
      unfold addAll at h
      obtain ⟨a', h1, h2⟩ := Out.bind_eq_ok.1 h
      by_cases hm : a.ref = o.ref ∧ a.epsg = o.epsg
      · obtain ⟨a1, k1, _, k2, k3, k4, _⟩ := C50_sum_partial L a o ha (hos o List.mem_cons_self) hne hm.1 hm.2
        rw [k1] at h1
        cases h1
        have hne' : a'.brick.faces ≠ [] := add_ne_nil L a o a' ha (hos o List.mem_cons_self) hne k1
        obtain ⟨m1, m2, m3⟩ := ih (fun o' ho' => hos o' (List.mem_cons_of_mem _ ho')) a' r k4 h2  hne'
        refine ⟨m1.trans k2, m2.trans k3, fun o' ho' => ?_⟩
        rcases List.mem_cons.1 ho' with rfl | ho'
        · exact ⟨by rw [m1, k2, hm.1], by rw [m2, k3, hm.2]⟩
        · exact m3 o' ho'
      · exfalso
        have hm' : a.ref ≠ o.ref ∨ a.epsg ≠ o.epsg := by
          by_contra hc
          push Not at hc
          exact hm hc
        have := (C50_mismatch C a o).1 ⟨hne, hm'⟩
        have e := (C50_in_place C a o a').1 h1
        rw [this] at e
        cases e
  refine ⟨fun hne => key os hos a r ha h  hne, ?_⟩
  intro os1
  induction os1 generalizing os a with
  | nil =>
    rintro o os2 rfl hne hempty _ o' ho'
    rw [List.nil_append, addAll] at h
    have e := (C50_mismatch C a o).2 hempty
    rw [(C50_in_place C a o o).2 e, Out.ok_bind] at h
    obtain ⟨m1, m2, m3⟩ := key os2 (fun o' ho' => hos o' (by simp [ho'])) o r (hos o (by simp)) h  hne
    rcases List.mem_cons.1 ho' with rfl | ho'
    · exact ⟨m1.symm, m2.symm⟩
    · exact m3 o' ho'
  | cons o1 os1 ih =>
    rintro o os2 rfl hne hempty hall
    have e := (C50_mismatch C a o1).2 hempty
    have h' : addAll C (os1 ++ o :: os2) o1 = .ok r := by
      have := h
      rw [List.cons_append, addAll] at this
      rw [(C50_in_place C a o1 o1).2 e, Out.ok_bind] at this
      exact this
    exact ih (os1 ++ o :: os2) (fun o' ho' => hos o' (by simp at ho' ⊢; tauto)) o1 (hos o1 (by simp)) h' o os2 rfl hne
      (hall o1 (by simp)) fun o' ho' => hall o' (by simp [ho'])

end

/-- C50 on an example: two footprints with the same reference are added, another reference throws and leaves the object as it was. -/
example : addAll rectCgal [⟨[], ⟨1, 2, 3⟩, 2154, Brick.ofFace (bar)⟩, ⟨[], ⟨1, 2, 3⟩, 2154, Brick.ofFace other⟩] FootPrint.empty =
      .ok ⟨[], ⟨1, 2, 3⟩, 2154, ⟨some ⟨1, -1, 21, 2⟩, [bar, other]⟩⟩ ∧
    (⟨[], ⟨1, 2, 3⟩, 2154, Brick.ofFace bar⟩ : FootPrint ℚ).addInPlace rectCgal ⟨[], ⟨1, 2, 4⟩, 2154, Brick.ofFace other⟩ =
      (⟨[], ⟨1, 2, 3⟩, 2154, Brick.ofFace bar⟩, .thrown .logicError) ∧
    (⟨[], ⟨1, 2, 3⟩, 2154, Brick.ofFace bar⟩ : FootPrint ℚ).addInPlace rectCgal ⟨[], ⟨1, 2, 4⟩, 2154, Brick.empty⟩ =
      (⟨[], ⟨1, 2, 3⟩, 2154, Brick.ofFace bar⟩, .thrown .logicError) := by
  refine ⟨by decide +kernel, by decide +kernel, by decide +kernel⟩

/-! ### C51 -/

section
variable {K : Type} [Field K] [LinearOrder K] [IsStrictOrderedRing K] [FloorRing K]
variable {C : Cgal K} {Ok : Pwh K → Prop} {Good : C.PSet → Prop} {Gen : V2 K → Prop}

/-- The ground point is in the box. -/
def InBox2 (B : Box2 K) (v : V2 K) : Prop := B.xmin ≤ v.x ∧ v.x ≤ B.xmax ∧ B.ymin ≤ v.y ∧ v.y ≤ B.ymax

/-- C51, the indexes: for every box, every polygon with its vertices in the box and every positive pixel size, the pixels of the polygon
are in the rows and columns of the image. `i0`, `j0`, `w`, `h` are the numbers `rasterize` computes from the box `b` of the polygon. -/
theorem C51_indexes (l : Poly K) (B : Box2 K) (hl : ∀ v ∈ l, InBox2 B v) (b : Box2 K) (hb : polyBox l = some b) (p : K) (hp : 0 < p) :
    0 ≤ ⌊(B.ymax - b.ymax) / p⌋ ∧ 0 ≤ ⌊(b.xmin - B.xmin) / p⌋ ∧ ∀ n w h : Nat, ⌈(b.xmax - b.xmin) / p⌉ = w → ⌈(b.ymax - b.ymin) / p⌉ = h →
      n < w * h → ⌊(B.ymax - b.ymax) / p⌋ + (n / w : Nat) < ⌈(B.ymax - B.ymin) / p⌉ ∧
        ⌊(b.xmin - B.xmin) / p⌋ + (n % w : Nat) < ⌈(B.xmax - B.xmin) / p⌉ := by
  have hne : l ≠ [] := by rintro rfl; cases hb
  obtain ⟨b', hb', hpr, hsub⟩ := polyBox_sub hne hl
  rw [hb] at hb'
  cases hb'
  obtain ⟨g1, g2, g3, g4, g5, g6⟩ := grid_fits hpr hsub hp
  refine ⟨g1, g2, fun n w h hw hh hn => ?_⟩
  have hw0 : 0 < w := by rcases Nat.eq_zero_or_pos w with rfl | h; simp at hn; exact h
  have h1 : n / w < h := Nat.div_lt_of_lt_mul hn
  have h2 : n % w < w := Nat.mod_lt _ hw0
  rw [hw] at g6
  rw [hh] at g5
  constructor
  · exact lt_of_lt_of_le (by have : ((n / w : Nat) : ℤ) < h := by exact_mod_cast h1
                             linarith) g5
  · exact lt_of_lt_of_le (by have : ((n % w : Nat) : ℤ) < w := by exact_mod_cast h2
                             linarith) g6

/-- A face whose heights can be computed: the plane is not too steep for `get_plane_height`, and the library returns bounded parts. -/
def Paintable (C : Cgal K) (p : K) (f : FacePrint K) : Prop :=
  f.isDegenerate C = true ∨ f.border.outer ≠ [] ∧ eps ≤ |C.toDouble f.plane.c| ∧
    ∀ x y, ∀ q ∈ C.inter (square x y p) f.border, q.outer ≠ []

theorem unique_ne_nil : ∀ l : List (V2 K), l ≠ [] → unique l ≠ []
  | [], h => absurd rfl h
  | [a], _ => by unfold unique; simp
  | a :: b :: t, _ => by
    unfold unique
    split
    · exact unique_ne_nil (a :: t) (by simp)
    · simp
termination_by l => l.length

theorem centroid_ok {q : Pwh K} (h : q.outer ≠ []) : ∃ c, centroid C q = .ok c := by
  unfold centroid
  split
  · rename_i he
    exact absurd he (unique_ne_nil _ (by simpa using h))
  · exact ⟨_, rfl⟩

theorem planeHeightInexact_ok {f : FacePrint K} (h : eps ≤ |C.toDouble f.plane.c|) (v : V2 K) :
    f.planeHeightInexact C v = .ok ((-1 * C.toDouble f.plane.d - C.toDouble f.plane.a * v.x - C.toDouble f.plane.b * v.y) / C.toDouble f.plane.c) := by
  unfold planeHeightInexact
  rw [if_neg (not_lt.2 h)]

theorem partHeights_ok {f : FacePrint K} (h : eps ≤ |C.toDouble f.plane.c|) (n : K) : ∀ (qs : List (Pwh K)) (s : K),
    (∀ q ∈ qs, q.outer ≠ []) → ∃ z, f.partHeights C n qs s = .ok z := by
  intro qs
  induction qs with
  | nil => intro s _; exact ⟨s, rfl⟩
  | cons q qs ih =>
    intro s hq
    obtain ⟨c, hc⟩ := centroid_ok (C := C) (hq q List.mem_cons_self)
    unfold partHeights
    rw [hc, Out.ok_bind, planeHeightInexact_ok h, Out.ok_bind]
    exact ih _ fun r hr => hq r (List.mem_cons_of_mem _ hr)

theorem pixelHeight_ok {f : FacePrint K} (h : eps ≤ |C.toDouble f.plane.c|) {x y p : K}
    (hq : ∀ q ∈ C.inter (square x y p) f.border, q.outer ≠ []) : ∃ z, f.pixelHeight C x y p = .ok z := by
  unfold pixelHeight
  split
  · exact ⟨none, rfl⟩
  · obtain ⟨z, hz⟩ := partHeights_ok h _ _ 0 hq
    exact ⟨some z, by rw [hz]; rfl⟩

/-- Painting paintable faces with vertices in the box never fails. -/
theorem paint_ok {B : Box2 K} {p : K} (hp : 0 < p) {H W : Nat} (hH : ceilCells (B.ymax - B.ymin) p = .ok H)
    (hW : ceilCells (B.xmax - B.xmin) p = .ok W) (fs : List (FacePrint K)) (hf : ∀ f ∈ fs, Paintable C p f ∧ ∀ v ∈ f.border.outer, InBox2 B v) :
    ∃ s', Raster.paint C true B.xmin B.ymax H W p fs (List.replicate (H * W) 0, List.replicate (H * W) 0) = .ok s' ∧
      s'.1.length = H * W ∧ s'.2.length = H * W ∧
      ∀ i < H, ∀ j < W, (seen C B.xmin B.ymax p i j fs).length ≤ 32767 →
        s'.1[i * W + j]? = some (mean (seen C B.xmin B.ymax p i j fs)) ∧
        s'.2[i * W + j]? = some ((seen C B.xmin B.ymax p i j fs).length : Int) := by
  have hin : ∀ f ∈ fs, f.isDegenerate C = false → ∃ b, f.bbox = some b ∧ ProperBox b ∧ SubBox b B := by
    intro f hm hd
    obtain ⟨hpa, hv⟩ := hf f hm
    rcases hpa with h | ⟨h, _⟩
    · rw [hd] at h; cases h
    · exact polyBox_sub h hv
  rcases paint_spec C hp hH hW fs hin [] (List.replicate (H * W) 0, List.replicate (H * W) 0) (by simp) (by simp) (by
      intro i hi j hj _
      have := key_lt hi hj
      simp [this, seen, mean_nil]) with h | ⟨f, hm, hd, x, y, h⟩
  · simpa using h
  · exfalso
    rcases (hf f hm).1 with h' | ⟨_, h', hq⟩
    · rw [hd] at h'; cases h'
    · obtain ⟨z, hz⟩ := pixelHeight_ok (x := x) (y := y) (p := p) h' (hq x y)
      rcases h with ⟨e, h, _⟩ | ⟨h, _⟩ <;> rw [hz] at h <;> cases h

theorem offsetLoop_ok (z : K) (hits : List Int) : ∀ (ks : List Nat) (img : List K), ks.Nodup → (∀ k ∈ ks, k < img.length ∧ k < hits.length) →
    ∃ img', Raster.offsetLoop z hits ks img = .ok img' ∧ img'.length = img.length ∧
      (∀ k, k ∉ ks → img'[k]? = img[k]?) ∧
      ∀ k ∈ ks, ∀ v n, img[k]? = some v → hits[k]? = some n → img'[k]? = some (v + if n = 0 then 0 else z) := by
  intro ks
  induction ks with
  | nil => intro img _ _; exact ⟨img, rfl, rfl, fun _ _ => rfl, by simp⟩
  | cons k ks ih =>
    intro img hnd hk
    rw [List.nodup_cons] at hnd
    obtain ⟨h1, h2⟩ := hk k List.mem_cons_self
    obtain ⟨v, hv⟩ := getElem?_of_lt h1
    obtain ⟨n, hn⟩ := getElem?_of_lt h2
    obtain ⟨img', e1, e2, e3, e4⟩ := ih (img.set k (v + times (decide (n ≠ 0)) z)) hnd.2 fun j hj => by
      rw [List.length_set]; exact hk j (List.mem_cons_of_mem _ hj)
    refine ⟨img', ?_, by rw [e2, List.length_set], ?_, ?_⟩
    · unfold Raster.offsetLoop
      rw [Out.atOr_eq_ok.2 hv, Out.ok_bind, Out.atOr_eq_ok.2 hn, Out.ok_bind, e1]
    · intro j hj
      rw [List.mem_cons, not_or] at hj
      rw [e3 j hj.2, List.getElem?_set_ne (Ne.symm hj.1)]
    · intro j hj v' n' hv' hn'
      rcases List.mem_cons.1 hj with rfl | hj
      · rw [hv] at hv'
        rw [hn] at hn'
        cases hv'
        cases hn'
        rw [e3 _ hnd.1, List.getElem?_set_self h1]
        unfold times
        by_cases h0 : n = 0 <;> simp [h0]
      · have hne : k ≠ j := by rintro rfl; exact hnd.1 hj
        exact e4 j hj v' n' (by rw [List.getElem?_set_ne hne]; exact hv') hn'

/-- C51: a footprint whose faces have their vertices in its box is rasterised without exception or undefined operation, for every positive
pixel size for which the size of the image fits in 64 bits; the image has one value and one hit count per pixel. -/
theorem C51_defined (fp : FootPrint K) (B : Box2 K) (hB : fp.brick.bbox = some B)
    (p : K) (hp : 0 < p) (hf : ∀ f ∈ fp.brick.faces, Paintable C p f ∧ ∀ v ∈ f.border.outer, InBox2 B v) (hpr : ProperBox B)
    (hs : ⌈(B.ymax - B.ymin) / p⌉ < 2 ^ 64 ∧ ⌈(B.xmax - B.xmin) / p⌉ < 2 ^ 64) :
    ∃ r, Raster.ofFootPrint C true fp p = .ok r ∧ (r.height : ℤ) = ⌈(B.ymax - B.ymin) / p⌉ ∧ (r.width : ℤ) = ⌈(B.xmax - B.xmin) / p⌉ ∧
      r.image.length = r.height * r.width ∧ r.hits.length = r.height * r.width ∧ r.pixel = p ∧ r.name = fp.name ∧ r.epsg = fp.epsg ∧
      r.ref = ⟨fp.ref.x + B.xmin, fp.ref.y + B.ymax, fp.ref.z⟩ ∧ r.offset = true ∧
      ∀ i < r.height, ∀ j < r.width, ∀ zs, seen C B.xmin B.ymax p i j fp.brick.faces = zs → zs.length ≤ 32767 →
        r.hit i j = .ok (zs.length : Int) ∧ r.at' i j = .ok (if zs = [] then 0 else fp.ref.z + mean zs) := by
  have n1 : 0 ≤ ⌈(B.ymax - B.ymin) / p⌉ := Int.ceil_nonneg (div_nonneg (by linarith [hpr.2]) hp.le)
  have n2 : 0 ≤ ⌈(B.xmax - B.xmin) / p⌉ := Int.ceil_nonneg (div_nonneg (by linarith [hpr.1]) hp.le)
  obtain ⟨H, hH⟩ := Int.eq_ofNat_of_zero_le n1
  obtain ⟨W, hW⟩ := Int.eq_ofNat_of_zero_le n2
  have cH : ceilCells (B.ymax - B.ymin) p = .ok H := ceilCells_eq_ok.2 ⟨hp.ne', hH, hs.1⟩
  have cW : ceilCells (B.xmax - B.xmin) p = .ok W := ceilCells_eq_ok.2 ⟨hp.ne', hW, hs.2⟩
  obtain ⟨s, h1, h2, h3, h4⟩ := paint_ok hp cH cW fp.brick.faces hf
  obtain ⟨img, k1, k2, k3, k4⟩ := offsetLoop_ok (fp.ref.z + 0) s.2 (List.range (H * W)) s.1 List.nodup_range fun k hk => by
    rw [h2, h3]; exact ⟨List.mem_range.1 hk, List.mem_range.1 hk⟩
  refine ⟨⟨fp.name, ⟨fp.ref.x + B.xmin, fp.ref.y + B.ymax, fp.ref.z + 0⟩, fp.epsg, H, W, p, img, s.2, true⟩, ?_, hH.symm, hW.symm,
    by rw [k2, h2], h3, rfl, rfl, rfl, by simp, rfl, ?_⟩
  · unfold Raster.ofFootPrint
    rw [hB]
    dsimp only
    rw [cH, Out.ok_bind, cW, Out.ok_bind, h1, Out.ok_bind]
    unfold Raster.verticalOffset
    rw [if_neg (by simp)]
    dsimp only
    rw [k1, Out.ok_bind]
  · intro i hi j hj zs hzs hlen
    have hi' : i < H := hi
    have hj' : j < W := hj
    subst hzs
    obtain ⟨e1, e2⟩ := h4 i hi' j hj' hlen
    have e3 := k4 (i * W + j) (List.mem_range.2 (key_lt hi' hj')) _ _ e1 e2
    have hguard : ¬ (i > H ∧ j > W) := by omega
    constructor
    · unfold Raster.hit
      rw [if_neg hguard]
      exact Out.atOr_eq_ok.2 e2
    · unfold Raster.at'
      rw [if_neg hguard]
      refine Out.atOr_eq_ok.2 (e3.trans ?_)
      by_cases hnil : seen C B.xmin B.ymax p i j fp.brick.faces = []
      · rw [hnil]; simp [mean_nil]
      · have : ((seen C B.xmin B.ymax p i j fp.brick.faces).length : Int) ≠ 0 := by
          rw [Ne, Int.natCast_eq_zero, List.length_eq_zero_iff]; exact hnil
        rw [if_neg this, if_neg hnil, add_zero, add_comm]

/-- The vertices of a part of a face are in every box that holds the vertices of the face. -/
theorem part_in_box (L : Lawful C Ok Good Gen) {f g : FacePrint K} (hp : PartOf C Gen f g) (hf : Ok f.border) (hg : Ok g.border) {B : Box2 K}
    (h : ∀ v ∈ g.border.outer, InBox2 B v) : ∀ v ∈ f.border.outer, InBox2 B v := by
  intro v hv
  have key := sub_hull L hg hf hp.2.2
  have e1 := key 1 0 (-B.xmin) (fun u hu => by linarith [(h u hu).1]) v hv
  have e2 := key (-1) 0 B.xmax (fun u hu => by linarith [(h u hu).2.1]) v hv
  have e3 := key 0 1 (-B.ymin) (fun u hu => by linarith [(h u hu).2.2.1]) v hv
  have e4 := key 0 (-1) B.ymax (fun u hu => by linarith [(h u hu).2.2.2]) v hv
  exact ⟨by linarith, by linarith, by linarith, by linarith⟩

theorem inBox2_of_boxHas {o : Option (Box2 K)} {B : Box2 K} (ho : o = some B) {v : V2 K} (h : BoxHas o v) : InBox2 B v := by
  obtain ⟨b, hb, h1, h2, h3, h4⟩ := h
  rw [ho] at hb
  cases hb
  exact ⟨h1, h2, h3, h4⟩

/-- The footprint of a node whose prints are valid is made by insertions. -/
theorem sumPrints_valid (L : Lawful C Ok Good Gen) : ∀ (fs : List (FacePrint K)) (b : Brick K), (∀ f ∈ fs, ValidFace Ok f) →
    (∀ f ∈ b.faces, ValidFace Ok f) → FootPrint.sumPrints C fs b = build C fs b := by
  intro fs
  induction fs with
  | nil => intro b _ _; rfl
  | cons f fs ih =>
    intro b hfs hb
    obtain ⟨c, h1, h2, h3, _⟩ := addBrick_valid L b (Brick.ofFace f) hb (by
      intro g hg
      have hg' : g ∈ [f] := hg
      rw [List.mem_singleton] at hg'
      subst hg'
      exact hfs g List.mem_cons_self)
    have h2' : b.addFace C f = .ok c := by
      have : build C [f] b = .ok c := h2
      unfold build at this
      obtain ⟨c', k1, k2⟩ := Out.bind_eq_ok.1 this
      cases k2
      exact k1
    unfold FootPrint.sumPrints build
    rw [h1, h2', Out.ok_bind, Out.ok_bind]
    exact ih c (fun g hg => hfs g (List.mem_cons_of_mem _ hg)) h3

/-- C51, footprints of nodes, for a library whose intersections are bounded polygons: all faces of the footprint are inside its box, however the faces were cut, so that `C51_defined` applies: the
footprint of every node with at least one print is rasterised at every positive pixel size. -/
theorem C51_node (L : Lawful C Ok Good Gen) (name : Text) (ref : V3 K) (epsg : Nat) (facets : List (Facet K))
    (hv : ∀ f ∈ orthoprint C facets, ValidFace Ok f ∧ eps ≤ |f.plane.c|) (hne : orthoprint C facets ≠ [])
    (hbd : ∀ q r, ∀ s ∈ C.inter q r, s.outer ≠ []) :
    ∃ fp B, FootPrint.ofNode C name ref epsg facets = .ok fp ∧ fp.brick.bbox = some B ∧ ProperBox B ∧
      (∀ f ∈ fp.brick.faces, ValidFace Ok f ∧ ∀ v ∈ f.border.outer, InBox2 B v) ∧
      ∀ p : K, 0 < p → ⌈(B.ymax - B.ymin) / p⌉ < 2 ^ 64 → ⌈(B.xmax - B.xmin) / p⌉ < 2 ^ 64 →
        ∃ r, Raster.ofFootPrint C true fp p = .ok r := by
  have hval : ∀ f ∈ orthoprint C facets, ValidFace Ok f := fun f hf => (hv f hf).1
  obtain ⟨b, h1, h2, h3⟩ := build_spec L (orthoprint C facets) Brick.empty [] hval (by simp [Brick.empty]) (by simp [Brick.empty])
  have hbox := (C49_contains C _ _ _ h1).2
  have hbn : b.faces ≠ [] := build_ne_nil L _ _ _ hval (by simp [Brick.empty]) (Or.inl hne) h1
  obtain ⟨f0, hf0⟩ := List.exists_mem_of_ne_nil _ hne
  obtain ⟨v0, hv0⟩ := List.exists_mem_of_length_pos (lt_of_lt_of_le (by norm_num : 0 < 3) (L.three _ (hval f0 hf0).1))
  obtain ⟨B, hB, q1, q2, q3, q4⟩ := hbox f0 hf0 v0 hv0
  have hin : ∀ f ∈ b.faces, ValidFace Ok f ∧ ∀ v ∈ f.border.outer, InBox2 B v := by
    intro f hf
    obtain ⟨g, hg, hpg⟩ := h3 f hf
    rw [List.nil_append] at hg
    exact ⟨h2 f hf, part_in_box L hpg (h2 f hf).1 (hval g hg).1 fun u hu => inBox2_of_boxHas hB (hbox g hg u hu)⟩
  refine ⟨⟨name, ref, epsg, b⟩, B, ?_, hB, ⟨q1.trans q2, q3.trans q4⟩, hin, ?_⟩
  · unfold FootPrint.ofNode
    rw [sumPrints_valid L _ _ hval (by simp [Brick.empty]), h1]
    rfl
  · intro p hp s1 s2
    have hpaint : ∀ f ∈ b.faces, Paintable C p f ∧ ∀ v ∈ f.border.outer, InBox2 B v := by
      intro f hf
      refine ⟨Or.inr ⟨?_, ?_, ?_⟩, (hin f hf).2⟩
      · intro hnil
        have := L.three _ (h2 f hf).1
        rw [hnil] at this
        simp at this
      · obtain ⟨g, hg, hpg⟩ := h3 f hf
        rw [List.nil_append] at hg
        rw [L.exact, hpg.2.1]
        exact (hv g hg).2
      · exact fun x y q hq => hbd _ _ q hq
    obtain ⟨r, hr, _⟩ := C51_defined (C := C) ⟨name, ref, epsg, b⟩ B hB p hp hpaint ⟨q1.trans q2, q3.trans q4⟩ ⟨s1, s2⟩
    exact ⟨r, hr⟩

/-- Without a positive pixel size, or without faces, the sizes are undefined. -/
theorem C51_undefined (C : Cgal K) (fp : FootPrint K) : (∀ b, fp.brick.bbox = some b → Raster.ofFootPrint C true fp 0 = .ub) ∧
    (fp.brick.bbox = none → ∀ p, Raster.ofFootPrint C true fp p = .ub) := by
  constructor
  · intro b hb
    unfold Raster.ofFootPrint ceilCells
    rw [hb]
    simp
  · intro hb p
    unfold Raster.ofFootPrint
    rw [hb]

/-! ### C52 -/

/-- `z` is between the lowest and the highest height of the face over the polygon. -/
def HeightOver (C : Cgal K) (Gen : V2 K → Prop) (q : Pwh K) (f : FacePrint K) (z : K) : Prop :=
  ∀ lo hi, (∀ v, Gen v → Interior C q v → Interior C f.border v → lo ≤ zAt f v ∧ zAt f v ≤ hi) → lo ≤ z ∧ z ≤ hi

/-- The face and the polygon have points in common. -/
def MeetsAt (C : Cgal K) (Gen : V2 K → Prop) (q : Pwh K) (f : FacePrint K) : Prop := ∃ v, Gen v ∧ Interior C q v ∧ Interior C f.border v

open Classical in
/-- What a user expects of a pixel: its hit count is the number of faces which meet its square, its value the mean of one height per such face,
over the pixel, raised by the height of the reference point; 0 if no face meets it. -/
def PixelIs (C : Cgal K) (Gen : V2 K → Prop) (q : Pwh K) (fs : List (FacePrint K)) (z0 : K) (hits : Int) (value : K) : Prop :=
  ∃ zs, List.Forall₂ (fun f z => HeightOver C Gen q f z) (fs.filter fun f => decide (MeetsAt C Gen q f)) zs ∧
    hits = zs.length ∧ value = if zs = [] then 0 else z0 + mean zs

theorem mem_unique {v : V2 K} : ∀ {l : List (V2 K)}, v ∈ unique l → v ∈ l
  | [], h => by unfold unique at h; exact h
  | [a], h => by unfold unique at h; exact h
  | a :: b :: t, h => by
    unfold unique at h
    split at h
    · have := mem_unique h
      simp only [List.mem_cons] at this ⊢
      tauto
    · rcases List.mem_cons.1 h with h | h
      · simp [h]
      · exact List.mem_cons_of_mem _ (mem_unique h)
termination_by l => l.length

theorem sum_affine (a b c : K) (l : List (V2 K)) :
    (l.map fun v => a * v.x + b * v.y + c).sum = a * (l.map V2.x).sum + b * (l.map V2.y).sum + c * l.length := by
  induction l with
  | nil => simp
  | cons v l ih =>
    simp only [List.map_cons, List.sum_cons, ih, List.length_cons]
    push_cast
    ring

/-- An affine function is nonnegative at the mean of points at which it is nonnegative. -/
theorem affine_mean {l : List (V2 K)} (hne : l ≠ []) (a b c : K) (h : ∀ v ∈ l, 0 ≤ a * v.x + b * v.y + c) :
    0 ≤ a * ((l.map V2.x).sum / l.length) + b * ((l.map V2.y).sum / l.length) + c := by
  have hpos : (0 : K) < l.length := by
    have := List.length_pos_of_ne_nil hne
    exact_mod_cast this
  have hs : 0 ≤ (l.map fun v => a * v.x + b * v.y + c).sum := List.sum_nonneg (by
    intro x hx
    obtain ⟨v, hv, rfl⟩ := List.mem_map.1 hx
    exact h v hv)
  rw [sum_affine] at hs
  have e : a * ((l.map V2.x).sum / l.length) + b * ((l.map V2.y).sum / l.length) + c =
      (a * (l.map V2.x).sum + b * (l.map V2.y).sum + c * l.length) / l.length := by
    field_simp
  rw [e]
  exact div_nonneg hs hpos.le

theorem centroid_affine (hd : ∀ x, C.toDouble x = x) {q : Pwh K} (hq : q.outer ≠ []) :
    ∃ m, centroid C q = .ok m ∧ ∀ a b c : K, (∀ v ∈ q.outer, 0 ≤ a * v.x + b * v.y + c) → 0 ≤ a * m.x + b * m.y + c := by
  have hmap : (q.outer.map fun v => (⟨C.toDouble v.x, C.toDouble v.y⟩ : V2 K)) = q.outer := by
    conv_rhs => rw [← List.map_id q.outer]
    apply List.map_congr_left
    intro v _
    rw [hd, hd]
    rfl
  unfold centroid
  rw [hmap]
  have hne := unique_ne_nil _ hq
  split
  · rename_i he
    exact absurd he hne
  · exact ⟨_, rfl, fun a b c h => affine_mean hne a b c fun v hv => h v (mem_unique hv)⟩

theorem zAt_affine (f : FacePrint K) (v : V2 K) : zAt f v = (-f.plane.a / f.plane.c) * v.x + (-f.plane.b / f.plane.c) * v.y + -f.plane.d / f.plane.c := by
  unfold zAt
  ring

/-- The height of a part is between the lowest and the highest height over it. -/
theorem partHeights_bounds (L : Lawful C Ok Good Gen) {f : FacePrint K} (hc : eps ≤ |f.plane.c|) {n : K} (hn : 0 < n) {q : Pwh K} {lo hi : K}
    (hlh : ∀ v, Gen v → Interior C q v → Interior C f.border v → lo ≤ zAt f v ∧ zAt f v ≤ hi) :
    ∀ (ss : List (Pwh K)) (t : K), (∀ s ∈ ss, Ok s ∧ ∀ v, Gen v → Interior C s v → Interior C q v ∧ Interior C f.border v) →
    ∃ z, f.partHeights C n ss t = .ok z ∧ t + lo * (ss.length / n) ≤ z ∧ z ≤ t + hi * (ss.length / n) := by
  intro ss
  induction ss with
  | nil => intro t _; exact ⟨t, rfl, by simp, by simp⟩
  | cons s ss ih =>
    intro t hs
    obtain ⟨hok, hin⟩ := hs s List.mem_cons_self
    obtain ⟨m, hm, ha⟩ := centroid_affine (C := C) L.exact (q := s) (by
      intro hnil
      have := L.three _ hok
      rw [hnil] at this
      simp at this)
    have hz : f.planeHeightInexact C m = .ok (zAt f m) := by
      rw [planeHeightInexact_ok (by rw [L.exact]; exact hc)]
      rw [L.exact, L.exact, L.exact, L.exact]
      unfold zAt
      congr 1
      ring
    have h1 : lo ≤ zAt f m := by
      have := ha (-f.plane.a / f.plane.c) (-f.plane.b / f.plane.c) (-f.plane.d / f.plane.c - lo) (L.tight s hok _ _ _ fun p hp hi => by
        have := (hlh p hp (hin p hp hi).1 (hin p hp hi).2).1
        rw [zAt_affine] at this
        linarith)
      rw [zAt_affine]
      linarith
    have h2 : zAt f m ≤ hi := by
      have := ha (f.plane.a / f.plane.c) (f.plane.b / f.plane.c) (f.plane.d / f.plane.c + hi) (L.tight s hok _ _ _ fun p hp hi' => by
        have := (hlh p hp (hin p hp hi').1 (hin p hp hi').2).2
        rw [zAt_affine] at this
        have e1 : -f.plane.a / f.plane.c * p.x = -(f.plane.a / f.plane.c * p.x) := by ring
        have e2 : -f.plane.b / f.plane.c * p.y = -(f.plane.b / f.plane.c * p.y) := by ring
        have e3 : -f.plane.d / f.plane.c = -(f.plane.d / f.plane.c) := by ring
        rw [e1, e2, e3] at this
        linarith)
      rw [zAt_affine]
      have e1 : -f.plane.a / f.plane.c * m.x = -(f.plane.a / f.plane.c * m.x) := by ring
      have e2 : -f.plane.b / f.plane.c * m.y = -(f.plane.b / f.plane.c * m.y) := by ring
      have e3 : -f.plane.d / f.plane.c = -(f.plane.d / f.plane.c) := by ring
      rw [e1, e2, e3]
      linarith
    obtain ⟨z, k1, k2, k3⟩ := ih (t + zAt f m / n) fun r hr => hs r (List.mem_cons_of_mem _ hr)
    refine ⟨z, ?_, ?_, ?_⟩
    · unfold partHeights
      rw [hm, Out.ok_bind, hz, Out.ok_bind, k1]
    · have d1 : lo / n ≤ zAt f m / n := div_le_div_of_nonneg_right h1 hn.le
      rw [List.length_cons]
      push_cast
      have : lo * (((ss.length : K) + 1) / n) = lo * (ss.length / n) + lo / n := by ring
      rw [this]
      linarith
    · have d1 : zAt f m / n ≤ hi / n := div_le_div_of_nonneg_right h2 hn.le
      rw [List.length_cons]
      push_cast
      have : hi * (((ss.length : K) + 1) / n) = hi * (ss.length / n) + hi / n := by ring
      rw [this]
      linarith

/-- C52, one face and one square: the face is hit exactly if the two have inner points in common, and the height is one of the face over the
square. -/
theorem C52_height (L : Lawful C Ok Good Gen) (f : FacePrint K) (hf : Ok f.border) (hc : eps ≤ |f.plane.c|) (x y p : K) (hq : Ok (square x y p)) :
    ∃ z, f.pixelHeight C x y p = .ok z ∧ (z ≠ none ↔ MeetsAt C Gen (square x y p) f) ∧
      ∀ z', z = some z' → HeightOver C Gen (square x y p) f z' := by
  have hin : ∀ s ∈ C.inter (square x y p) f.border, Ok s ∧ ∀ v, Gen v → Interior C s v → Interior C (square x y p) v ∧ Interior C f.border v :=
    fun s hs => ⟨L.inter_ok _ _ hq hf s hs, fun v hv hi => (L.inter_iff _ _ hq hf v hv).1 ⟨s, hs, hi⟩⟩
  unfold pixelHeight
  by_cases he : C.inter (square x y p) f.border = []
  · rw [if_pos (by rw [he]; rfl)]
    refine ⟨none, rfl, ⟨fun h => absurd rfl h, ?_⟩, by simp⟩
    rintro ⟨v, hv, h1, h2⟩
    obtain ⟨s, hs, _⟩ := (L.inter_iff _ _ hq hf v hv).2 ⟨h1, h2⟩
    rw [he] at hs
    simp at hs
  · rw [if_neg (by simpa using he)]
    have hpos : (0 : K) < ((C.inter (square x y p) f.border).length : K) := by
      have := List.length_pos_of_ne_nil he
      exact_mod_cast this
    obtain ⟨z, hz⟩ := partHeights_ok (C := C) (f := f) (by rw [L.exact]; exact hc) ((C.inter (square x y p) f.border).length : K) _ 0 (fun s hs hnil => by
      have := L.three _ (hin s hs).1
      rw [hnil] at this
      simp at this)
    refine ⟨some z, by rw [hz]; rfl, ⟨fun _ => ?_, by simp⟩, ?_⟩
    · obtain ⟨s, hs⟩ := List.exists_mem_of_ne_nil _ he
      obtain ⟨v, hv, hi⟩ := L.inner s (hin s hs).1
      exact ⟨v, hv, ((hin s hs).2 v hv hi).1, ((hin s hs).2 v hv hi).2⟩
    · rintro z' ⟨⟩ lo hi hlh
      obtain ⟨w, k1, k2, k3⟩ := partHeights_bounds L hc hpos hlh _ 0 hin
      rw [hz] at k1
      cases k1
      rw [div_self hpos.ne'] at k2 k3
      constructor <;> linarith

/-- The corner of the box of the face is a whole number of pixels from the corner of the image. -/
def AlignedBox (left top p : K) (b : Box2 K) : Prop := ∃ m n : ℤ, b.xmin = left + m * p ∧ b.ymax = top - n * p

/-- For aligned faces the grid of the face is the grid of the image. -/
theorem reported_aligned (L : Lawful C Ok Good Gen) (f : FacePrint K) (hf : ValidFace Ok f) (hc : eps ≤ |f.plane.c|) {left top p : K} (hp : 0 < p)
    {b : Box2 K} (hb : f.bbox = some b) (ha : AlignedBox left top p b) (i j : Nat) (hq : Ok (cell left top p i j)) :
    f.pixelHeight C (left + (j : K) * p) (top - (i : K) * p) p = .ok (reported C left top p i j f) := by
  obtain ⟨m, n, hm, hn⟩ := ha
  have fm : ⌊(b.xmin - left) / p⌋ = m := by
    rw [hm, add_sub_cancel_left, mul_div_cancel_right₀ _ hp.ne', Int.floor_intCast]
  have fn : ⌊(top - b.ymax) / p⌋ = n := by
    rw [hn, sub_sub_cancel, mul_div_cancel_right₀ _ hp.ne', Int.floor_intCast]
  obtain ⟨z, hz, hhit, _⟩ := C52_height L f hf.1 hc (left + (j : K) * p) (top - (i : K) * p) p hq
  have ex : b.xmin + (((j : ℤ) - m : ℤ) : K) * p = left + (j : K) * p := by rw [hm]; push_cast; ring
  have ey : b.ymax - (((i : ℤ) - n : ℤ) : K) * p = top - (i : K) * p := by rw [hn]; push_cast; ring
  unfold reported
  rw [hb]
  dsimp only
  rw [if_neg (by rw [notDegenerate L hf]; simp), fm, fn, ex, ey, hz]
  split
  · rfl
  · rename_i hout
    cases z with
    | none => rfl
    | some z =>
      exfalso
      obtain ⟨v, hv, h1, h2⟩ := hhit.1 (by simp)
      have hbox : ∀ u ∈ f.border.outer, InBox2 b u := fun u hu => inBox2_of_boxHas hb (boxHas_polyBox hu)
      have s1 := L.strict _ hf.1 v hv h2 1 0 (-b.xmin) (Or.inl one_ne_zero) (fun u hu => by linarith [(hbox u hu).1])
      have s2 := L.strict _ hf.1 v hv h2 (-1) 0 b.xmax (Or.inl (by simp)) (fun u hu => by linarith [(hbox u hu).2.1])
      have s3 := L.strict _ hf.1 v hv h2 0 1 (-b.ymin) (Or.inr one_ne_zero) (fun u hu => by linarith [(hbox u hu).2.2.1])
      have s4 := L.strict _ hf.1 v hv h2 0 (-1) b.ymax (Or.inr (by simp)) (fun u hu => by linarith [(hbox u hu).2.2.2])
      have hcell : ∀ u ∈ (cell left top p i j).outer, left + (j : K) * p ≤ u.x ∧ u.x ≤ left + (j : K) * p + p ∧
          top - (i : K) * p - p ≤ u.y ∧ u.y ≤ top - (i : K) * p := by
        intro u hu
        simp only [cell, square, List.mem_cons, List.not_mem_nil, or_false] at hu
        rcases hu with rfl | rfl | rfl | rfl <;> refine ⟨?_, ?_, ?_, ?_⟩ <;> dsimp only <;> linarith
      have t1 := L.strict _ hq v hv h1 1 0 (-(left + (j : K) * p)) (Or.inl one_ne_zero) (fun u hu => by linarith [(hcell u hu).1])
      have t2 := L.strict _ hq v hv h1 (-1) 0 (left + (j : K) * p + p) (Or.inl (by simp)) (fun u hu => by linarith [(hcell u hu).2.1])
      have t3 := L.strict _ hq v hv h1 0 1 (-(top - (i : K) * p - p)) (Or.inr one_ne_zero) (fun u hu => by linarith [(hcell u hu).2.2.1])
      have t4 := L.strict _ hq v hv h1 0 (-1) (top - (i : K) * p) (Or.inr (by simp)) (fun u hu => by linarith [(hcell u hu).2.2.2])
      apply hout
      refine ⟨?_, ?_, ?_, ?_⟩
      · have : (n : K) * p < ((i : K) + 1) * p := by linarith
        have := lt_of_mul_lt_mul_right this hp.le
        have : n < (i : ℤ) + 1 := by exact_mod_cast this
        omega
      · have : ((i : K) - n) * p < b.ymax - b.ymin := by linarith
        have h3 : ((i : K) - n) < (b.ymax - b.ymin) / p := (lt_div_iff₀ hp).2 this
        have h4 : (((i : ℤ) - n : ℤ) : K) < (⌈(b.ymax - b.ymin) / p⌉ : K) := lt_of_lt_of_le (by push_cast; exact h3) (Int.le_ceil _)
        have : (i : ℤ) - n < ⌈(b.ymax - b.ymin) / p⌉ := by exact_mod_cast h4
        omega
      · have : (m : K) * p < ((j : K) + 1) * p := by linarith
        have := lt_of_mul_lt_mul_right this hp.le
        have : m < (j : ℤ) + 1 := by exact_mod_cast this
        omega
      · have : ((j : K) - m) * p < b.xmax - b.xmin := by linarith
        have h3 : ((j : K) - m) < (b.xmax - b.xmin) / p := (lt_div_iff₀ hp).2 this
        have h4 : (((j : ℤ) - m : ℤ) : K) < (⌈(b.xmax - b.xmin) / p⌉ : K) := lt_of_lt_of_le (by push_cast; exact h3) (Int.le_ceil _)
        have : (j : ℤ) - m < ⌈(b.xmax - b.xmin) / p⌉ := by exact_mod_cast h4
        omega

/-- The faces of a footprint as a raster print needs them. -/
structure Rasterable (C : Cgal K) (Ok : Pwh K → Prop) (fp : FootPrint K) (B : Box2 K) (p : K) : Prop where
  box : fp.brick.bbox = some B
  proper : ProperBox B
  pixel : 0 < p
  valid : ∀ f ∈ fp.brick.faces, ValidFace Ok f ∧ eps ≤ |f.plane.c|
  inside : ∀ f ∈ fp.brick.faces, ∀ v ∈ f.border.outer, InBox2 B v
  bounded : ∀ q r, ∀ s ∈ C.inter q r, s.outer ≠ []
  fits : ⌈(B.ymax - B.ymin) / p⌉ < 2 ^ 64 ∧ ⌈(B.xmax - B.xmin) / p⌉ < 2 ^ 64
  count : fp.brick.faces.length ≤ 32767

theorem Rasterable.paintable (L : Lawful C Ok Good Gen) {fp : FootPrint K} {B : Box2 K} {p : K} (h : Rasterable C Ok fp B p) :
    ∀ f ∈ fp.brick.faces, Paintable C p f ∧ ∀ v ∈ f.border.outer, InBox2 B v := by
  intro f hf
  refine ⟨Or.inr ⟨?_, by rw [L.exact]; exact (h.valid f hf).2, fun x y q hq => h.bounded _ _ q hq⟩, h.inside f hf⟩
  intro hnil
  have := L.three _ (h.valid f hf).1.1
  rw [hnil] at this
  simp at this

/-- C52 as stated, for footprints with at most 32767 faces: every pixel is what a user expects. False: `C52_refuted`. -/
def C52_full : Prop := ∀ (C : Cgal ℚ) (Ok : Pwh ℚ → Prop) (Good : C.PSet → Prop) (Gen : V2 ℚ → Prop), Lawful C Ok Good Gen →
  ∀ (fp : FootPrint ℚ) (B : Box2 ℚ) (p : ℚ), Rasterable C Ok fp B p → NoOverlap C Gen fp.brick.faces →
    ∃ r, Raster.ofFootPrint C true fp p = .ok r ∧ ∀ i < r.height, ∀ j < r.width, Ok (cell B.xmin B.ymax p i j) →
      ∃ n v, r.hit i j = .ok n ∧ r.at' i j = .ok v ∧ PixelIs C Gen (cell B.xmin B.ymax p i j) fp.brick.faces fp.ref.z n v

/-- C52, what holds of every rasterable footprint: hit count and value of a pixel are the number and the mean of the heights reported by the
faces, each on the grid anchored at its own box. -/
theorem C52_mean_partial (L : Lawful C Ok Good Gen) (fp : FootPrint K) (B : Box2 K) (p : K) (h : Rasterable C Ok fp B p) :
    ∃ r, Raster.ofFootPrint C true fp p = .ok r ∧ ∀ i < r.height, ∀ j < r.width,
      ∃ zs, zs = fp.brick.faces.filterMap (reported C B.xmin B.ymax p i j) ∧ r.hit i j = .ok (zs.length : Int) ∧
        r.at' i j = .ok (if zs = [] then 0 else fp.ref.z + mean zs) := by
  obtain ⟨r, hr, _, _, _, _, _, _, _, _, _, hall⟩ := C51_defined (C := C) fp B h.box p h.pixel (h.paintable L) h.proper h.fits
  refine ⟨r, hr, fun i hi j hj => ⟨_, rfl, ?_⟩⟩
  exact hall i hi j hj _ rfl ((List.length_filterMap_le _ _).trans h.count)

/-- C52, the part that holds: when the boxes of the faces are aligned with the pixels, every pixel is what a user expects. -/
theorem C52_aligned_partial (L : Lawful C Ok Good Gen) (fp : FootPrint K) (B : Box2 K) (p : K) (h : Rasterable C Ok fp B p)
    (ha : ∀ f ∈ fp.brick.faces, ∀ b, f.bbox = some b → AlignedBox B.xmin B.ymax p b) :
    ∃ r, Raster.ofFootPrint C true fp p = .ok r ∧ ∀ i < r.height, ∀ j < r.width, Ok (cell B.xmin B.ymax p i j) →
      ∃ n v, r.hit i j = .ok n ∧ r.at' i j = .ok v ∧ PixelIs C Gen (cell B.xmin B.ymax p i j) fp.brick.faces fp.ref.z n v := by
  obtain ⟨r, hr, hall⟩ := C52_mean_partial L fp B p h
  refine ⟨r, hr, fun i hi j hj hq => ?_⟩
  obtain ⟨zs, hzs, h1, h2⟩ := hall i hi j hj
  refine ⟨_, _, h1, h2, zs, ?_, rfl, rfl⟩
  rw [hzs]
  have key : ∀ fs : List (FacePrint K), (∀ f ∈ fs, f ∈ fp.brick.faces) →
      List.Forall₂ (fun f z => HeightOver C Gen (cell B.xmin B.ymax p i j) f z)
        (fs.filter fun f => @decide (MeetsAt C Gen (cell B.xmin B.ymax p i j) f) (Classical.propDecidable _))
        (fs.filterMap (reported C B.xmin B.ymax p i j)) := by
    intro fs
    induction fs with
    | nil => intro _; exact List.Forall₂.nil
    | cons f fs ih =>
      intro hfs
      have ih' := ih fun g hg => hfs g (List.mem_cons_of_mem _ hg)
      have hf := hfs f List.mem_cons_self
      obtain ⟨b, hb, _⟩ : ∃ b, f.bbox = some b ∧ ProperBox b ∧ SubBox b B := by
        refine polyBox_sub ?_ (h.inside f hf)
        intro hnil
        have := L.three _ (h.valid f hf).1.1
        rw [hnil] at this
        simp at this
      have hrep := reported_aligned L f (h.valid f hf).1 (h.valid f hf).2 h.pixel hb (ha f hf b hb) i j hq
      obtain ⟨z, hz, hhit, hover⟩ := C52_height L f (h.valid f hf).1.1 (h.valid f hf).2 (B.xmin + (j : K) * p) (B.ymax - (i : K) * p) p hq
      rw [hrep] at hz
      cases hz
      rw [List.filter_cons, List.filterMap_cons]
      cases hr' : reported C B.xmin B.ymax p i j f with
      | none =>
        rw [if_neg]
        · exact ih'
        · rw [@decide_eq_true_iff _ (Classical.propDecidable _)]
          intro hm
          exact hhit.2 hm hr'
      | some z =>
        rw [if_pos]
        · exact List.Forall₂.cons (hover z hr') ih'
        · rw [@decide_eq_true_iff _ (Classical.propDecidable _)]
          exact hhit.1 (by rw [hr']; simp)
  exact key _ fun f hf => hf

end

/-- A lot of four units with a small house in its middle, for the examples: a pixel of two units is not aligned with the house. -/
def house : FootPrint ℚ := ⟨[], ⟨100, 200, 50⟩, 2154, ⟨some ⟨0, 0, 4, 2⟩, [slab 1 0 0 1 2 3, slab 2 1 0 3 2 7]⟩⟩

theorem rect_bounded : ∀ q r, ∀ s ∈ rectCgal.inter q r, s.outer ≠ [] := by
  intro q r s hs
  obtain ⟨_, rfl⟩ := mem_rects.1 (show s ∈ rects (boxMeet (boxOf q) (boxOf r)) from hs)
  simp [rect]

theorem eps_le_one : (eps : ℚ) ≤ |1| := by unfold eps; norm_num

theorem slab_in {id : Nat} {x0 y0 x1 y1 z : ℚ} {B : Box2 ℚ} (h : B.xmin ≤ x0 ∧ x0 ≤ B.xmax ∧ B.xmin ≤ x1 ∧ x1 ≤ B.xmax ∧
    B.ymin ≤ y0 ∧ y0 ≤ B.ymax ∧ B.ymin ≤ y1 ∧ y1 ≤ B.ymax) : ∀ v ∈ (slab id x0 y0 x1 y1 z).border.outer, InBox2 B v := by
  intro v hv
  simp only [slab, rect, List.mem_cons, List.not_mem_nil, or_false] at hv
  obtain ⟨h1, h2, h3, h4, h5, h6, h7, h8⟩ := h
  rcases hv with rfl | rfl | rfl | rfl <;> exact ⟨by assumption, by assumption, by assumption, by assumption⟩

theorem house_rasterable (p : ℚ) (hp : 1 ≤ p) : Rasterable rectCgal RectOk house ⟨0, 0, 4, 2⟩ p where
  box := rfl
  proper := ⟨by norm_num, by norm_num⟩
  pixel := by linarith
  valid := by
    intro f hf
    have hf' : f ∈ [slab 1 0 0 1 2 3, slab 2 1 0 3 2 7] := hf
    simp only [List.mem_cons, List.not_mem_nil, or_false] at hf'
    rcases hf' with rfl | rfl
    · exact ⟨by simpa using slab_valid 1 0 0 1 2 3 (by decide) (by decide), eps_le_one⟩
    · exact ⟨by simpa using slab_valid 2 1 0 3 2 7 (by decide) (by decide), eps_le_one⟩
  inside := by
    intro f hf
    have hf' : f ∈ [slab 1 0 0 1 2 3, slab 2 1 0 3 2 7] := hf
    simp only [List.mem_cons, List.not_mem_nil, or_false] at hf'
    rcases hf' with rfl | rfl <;> apply slab_in <;> norm_num
  bounded := rect_bounded
  fits := by
    have hp0 : 0 < p := by linarith
    have h1 : ((2 : ℚ) - 0) / p ≤ 2 := by rw [div_le_iff₀ hp0]; linarith
    have h2 : ((4 : ℚ) - 0) / p ≤ 4 := by rw [div_le_iff₀ hp0]; linarith
    have c1 : ⌈((2 : ℚ) - 0) / p⌉ ≤ 2 := Int.ceil_le.2 (by exact_mod_cast h1)
    have c2 : ⌈((4 : ℚ) - 0) / p⌉ ≤ 4 := Int.ceil_le.2 (by exact_mod_cast h2)
    exact ⟨lt_of_le_of_lt c1 (by norm_num), lt_of_le_of_lt c2 (by norm_num)⟩
  count := by simp [house]

theorem house_apart : NoOverlap rectCgal RectGen house.brick.faces := by
  unfold NoOverlap
  show List.Pairwise _ [slab 1 0 0 1 2 3, slab 2 1 0 3 2 7]
  rw [List.pairwise_cons]
  refine ⟨?_, List.pairwise_singleton _ _⟩
  intro f hf
  rw [List.mem_singleton] at hf
  subst hf
  rintro p _ ⟨h1, h2⟩
  have a := (slab_interior 1 0 0 1 2 3 (by norm_num) (by norm_num) p).1 h1
  have b := (slab_interior 2 1 0 3 2 7 (by norm_num) (by norm_num) p).1 h2
  linarith [a.2.1, b.1]

/-- The image of the lot in pixels of two units: the house is painted in the first pixel only, although it covers half of the second. -/
theorem house_image : Raster.ofFootPrint rectCgal true house 2 =
    .ok ⟨[], ⟨100, 202, 50⟩, 2154, 1, 2, 2, [55, 0], [2, 0], true⟩ := by decide +kernel

theorem cell_ok (l t p i j : ℤ) (hp : 0 < p) : RectOk (square (l + j * p : ℚ) (t - i * p) p) := by
  have hp' : (0 : ℚ) < p := by exact_mod_cast hp
  refine ⟨⟨l + j * p, t - i * p - p, l + j * p + p, t - i * p⟩, ⟨by show (l + j * p : ℚ) < l + j * p + p; linarith,
    by show (t - i * p - p : ℚ) < t - i * p; linarith⟩, ⟨l + j * p, by push_cast; rfl⟩, ⟨t - i * p - p, by push_cast; rfl⟩,
    ⟨l + j * p + p, by push_cast; rfl⟩, ⟨t - i * p, by push_cast; rfl⟩, rfl, ⟨1, rfl⟩⟩

/-- C52 is false: the squares that are compared with a face are anchored at the box of the face, not at the image. -/
theorem C52_refuted : ¬ C52_full := by
  intro h
  obtain ⟨r, hr, hall⟩ := h rectCgal RectOk RectGood RectGen rect_lawful house _ 2 (house_rasterable 2 (by norm_num)) house_apart
  rw [house_image] at hr
  cases hr
  have hq : RectOk (cell (0 : ℚ) 2 2 0 1) := by
    have := cell_ok 0 2 2 0 1 (by decide)
    unfold cell
    push_cast at this ⊢
    exact this
  obtain ⟨n, v, h1, _, zs, hzs, hn, _⟩ := hall 0 (by decide) 1 (by decide) hq
  have h1' : (.ok 0 : Out Int) = .ok n := h1
  cases h1'
  have hlen : zs.length = 0 := by exact_mod_cast hn.symm
  rw [List.length_eq_zero_iff] at hlen
  subst hlen
  rw [List.forall₂_nil_right_iff, List.filter_eq_nil_iff] at hzs
  refine hzs (slab 2 1 0 3 2 7) (by simp [house]) ?_
  rw [@decide_eq_true_iff _ (Classical.propDecidable _)]
  refine ⟨⟨((2 : ℤ) : ℚ) + 1 / 2, ((0 : ℤ) : ℚ) + 1 / 2⟩, half_gen 2 0, ?_, (slab_interior 2 1 0 3 2 7 (by norm_num) (by norm_num) _).2 (by norm_num)⟩
  refine (interior_isRect (b := ⟨2, 0, 4, 2⟩) ⟨by norm_num, by norm_num⟩ ⟨rfl, ⟨1, by simp [cell, square, rect]; norm_num⟩⟩ _).2 ?_
  unfold InRect
  norm_num

/-- The hypotheses of the positive theorem are met: pixels of one unit are aligned with the house. -/
example : ∃ r, Raster.ofFootPrint rectCgal true house 1 = .ok r ∧ ∀ i < r.height, ∀ j < r.width, RectOk (cell 0 2 1 i j) →
    ∃ n v, r.hit i j = .ok n ∧ r.at' i j = .ok v ∧ PixelIs rectCgal RectGen (cell 0 2 1 i j) house.brick.faces 50 n v := by
  refine C52_aligned_partial rect_lawful house ⟨0, 0, 4, 2⟩ 1 (house_rasterable 1 (by norm_num)) ?_
  intro f hf b hb
  have hf' : f ∈ [slab 1 0 0 1 2 3, slab 2 1 0 3 2 7] := hf
  simp only [List.mem_cons, List.not_mem_nil, or_false] at hf'
  rcases hf' with rfl | rfl
  · rw [show (slab 1 0 0 1 2 3).bbox = some ⟨0, 0, 1, 2⟩ by decide +kernel] at hb
    cases hb
    exact ⟨0, 0, by norm_num, by norm_num⟩
  · rw [show (slab 2 1 0 3 2 7).bbox = some ⟨1, 0, 3, 2⟩ by decide +kernel] at hb
    cases hb
    exact ⟨1, 0, by norm_num, by norm_num⟩

example : Raster.ofFootPrint rectCgal true house 1 =
    .ok ⟨[], ⟨100, 202, 50⟩, 2154, 2, 4, 1, [53, 57, 57, 0, 53, 57, 57, 0], [1, 1, 1, 0, 1, 1, 1, 0], true⟩ := by decide +kernel

end City.Props
