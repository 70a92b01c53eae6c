import Verif.Lemmas.Brick
/-! Lemmas about the insertion of a face in a brick print. -/
set_option linter.unusedSectionVars false
namespace City.Spec
open City Brick
variable {K : Type} [Field K] [LinearOrder K] [IsStrictOrderedRing K]
variable {C : Cgal K} {Ok : Pwh K → Prop} {Good : C.PSet → Prop} {Gen : V2 K → Prop}

theorem foldl_join (L : Lawful C Ok Good Gen) (fs : List (FacePrint K)) (h : ∀ f ∈ fs, ValidFace Ok f) (s : C.PSet) (hs : Good s) :
    Good (fs.foldl (fun s f => C.join s f.border) s) ∧
    ∀ p, Gen p → (Covers C (fs.foldl (fun s f => C.join s f.border) s) p ↔ Covers C s p ∨ Ground C fs p) := by
  induction fs generalizing s with
  | nil => exact ⟨hs, fun p _ => by simp [Ground]⟩
  | cons f fs ih =>
    have hf := h f List.mem_cons_self
    have := ih (fun g hg => h g (List.mem_cons_of_mem _ hg)) (C.join s f.border) (L.join_good _ _ hs hf.1)
    refine ⟨this.1, fun p hp => ?_⟩
    rw [List.foldl_cons, this.2 p hp, L.covers_join _ _ hs hf.1 p hp, ground_cons]
    tauto

theorem joinAll_spec (L : Lawful C Ok Good Gen) {fs : List (FacePrint K)} (h : ∀ f ∈ fs, ValidFace Ok f) :
    Good (joinAll C fs) ∧ ∀ p, Gen p → (Covers C (joinAll C fs) p ↔ Ground C fs p) := by
  have := foldl_join L fs h C.emptySet L.empty_good
  refine ⟨this.1, fun p hp => ?_⟩
  unfold joinAll
  rw [this.2 p hp]
  have := L.covers_empty p hp
  tauto

theorem overlaps_iff (L : Lawful C Ok Good Gen) {b : Brick K} (h : ∀ f ∈ b.faces, ValidFace Ok f) {q : Pwh K} (hq : Ok q) :
    b.overlaps C q = true ↔ ∃ p, Gen p ∧ Ground C b.faces p ∧ Interior C q p := by
  obtain ⟨hg, hc⟩ := joinAll_spec L h
  have hgm := L.meet_good _ _ hg hq
  unfold overlaps
  rw [Bool.not_eq_true', ← Bool.not_eq_true, L.isEmpty_iff _ hgm]
  constructor
  · intro hne
    obtain ⟨s, hs⟩ := List.exists_mem_of_ne_nil _ hne
    obtain ⟨p, hp, hi⟩ := L.inner s (L.pieces_ok _ hgm s hs)
    have := (L.covers_meet _ _ hg hq p hp).1 ⟨s, hs, hi⟩
    exact ⟨p, hp, (hc p hp).1 this.1, this.2⟩
  · rintro ⟨p, hp, h1, h2⟩ he
    obtain ⟨s, hs, _⟩ := (L.covers_meet _ _ hg hq p hp).2 ⟨(hc p hp).2 h1, h2⟩
    rw [he] at hs
    simp at hs

theorem holesEq_mem {hs t : List (Poly K)} (h : holesEq hs t = true) : ∀ g ∈ t, ∃ k ∈ hs, g ~r k := by
  induction hs generalizing t with
  | nil =>
    unfold holesEq at h
    rw [List.isEmpty_iff] at h
    subst h
    simp
  | cons k hs ih =>
    unfold holesEq at h
    cases hf : t.find? (fun g => polyEq g k) with
    | none => rw [hf] at h; simp at h
    | some g' =>
      rw [hf] at h
      have hg' : polyEq g' k = true := by
        have := List.find?_some hf
        simpa using this
      unfold polyEq at hg'
      rw [decide_eq_true_eq] at hg'
      intro g hg
      by_cases e : g = g'
      · subst e; exact ⟨k, List.mem_cons_self, hg'⟩
      · obtain ⟨x, hx, hr⟩ := ih h g ((List.mem_erase_of_ne e).2 hg)
        exact ⟨x, List.mem_cons_of_mem _ hx, hr⟩

theorem pwhEq_interior (L : Lawful C Ok Good Gen) {q r : Pwh K} (h : pwhEq q r = true) {p : V2 K} (hi : Interior C q p) :
    Interior C r p := by
  unfold pwhEq at h
  rw [Bool.and_eq_true, Bool.and_eq_true] at h
  obtain ⟨⟨_, ho⟩, hh⟩ := h
  unfold polyEq at ho
  rw [decide_eq_true_eq] at ho
  refine ⟨by rw [← L.rotation _ _ ho]; exact hi.1, fun g hg => ?_⟩
  obtain ⟨k, hk, hr⟩ := holesEq_mem hh g hg
  rw [L.rotation _ _ hr]
  exact hi.2 k hk

theorem pwhEq_interior' (L : Lawful C Ok Good Gen) {q r : Pwh K} (h : pwhEq q r = true) {p : V2 K} (hi : Interior C r p) :
    Interior C q p := by
  unfold pwhEq at h
  rw [Bool.and_eq_true, Bool.and_eq_true, beq_iff_eq] at h
  obtain ⟨⟨hlen, ho⟩, hh⟩ := h
  unfold polyEq at ho
  rw [decide_eq_true_eq] at ho
  refine ⟨by rw [L.rotation _ _ ho]; exact hi.1, ?_⟩
  have : ∀ hs t : List (Poly K), holesEq hs t = true → ∀ k ∈ hs, ∃ g ∈ t, g ~r k := by
    intro hs
    induction hs with
    | nil => simp
    | cons k hs ih =>
      intro t h
      unfold holesEq at h
      cases hf : t.find? (fun g => polyEq g k) with
      | none => rw [hf] at h; simp at h
      | some g' =>
        rw [hf] at h
        have hg' : polyEq g' k = true := by
          have := List.find?_some hf
          simpa using this
        unfold polyEq at hg'
        rw [decide_eq_true_eq] at hg'
        intro x hx
        rcases List.mem_cons.1 hx with rfl | hx
        · exact ⟨g', List.mem_of_find?_eq_some hf, hg'⟩
        · obtain ⟨g, hg, hr⟩ := ih _ h x hx
          exact ⟨g, List.mem_of_mem_erase hg, hr⟩
  intro k hk
  obtain ⟨g, hg, hr⟩ := this _ _ hh k hk
  rw [← L.rotation _ _ hr]
  exact hi.2 g hg

theorem containsFace_ground (L : Lawful C Ok Good Gen) {b : Brick K} (h : ∀ f ∈ b.faces, ValidFace Ok f) {f : FacePrint K}
    (hf : Ok f.border) (hc : b.containsFace C f = true) {p : V2 K} (hp : Gen p) (hi : Interior C f.border p) : Ground C b.faces p := by
  obtain ⟨hg, hcov⟩ := joinAll_spec L h
  unfold containsFace at hc
  have key : ∀ q, C.pieces (C.meet (joinAll C b.faces) f.border) = [q] → pwhEq q f.border = true → Ground C b.faces p := by
    intro q hq he
    have : Covers C (C.meet (joinAll C b.faces) f.border) p := ⟨q, by rw [hq]; simp, pwhEq_interior' L he hi⟩
    exact (hcov p hp).1 ((L.covers_meet _ _ hg hf p hp).1 this).1
  split at hc
  · exact key _ (by assumption) hc
  · simp at hc

/-! ### Heights -/

theorem height_valid (L : Lawful C Ok Good Gen) {f : FacePrint K} (hf : ValidFace Ok f) (p : V2 K) :
    f.height C p = .ok (if f.contains C p then zAt f p else 0) := by
  unfold FacePrint.height
  rw [planeHeight_ok L hf.2, Out.ok_bind, notDegenerate L hf]
  rfl

theorem sumHeights_ok (L : Lawful C Ok Good Gen) {fs : List (FacePrint K)} (h : ∀ f ∈ fs, ValidFace Ok f) (p : V2 K) (z : K) :
    sumHeights C p fs z = .ok (z + (fs.map fun f => if f.contains C p then zAt f p else 0).sum) := by
  induction fs generalizing z with
  | nil => simp [sumHeights]
  | cons f fs ih =>
    unfold sumHeights
    rw [height_valid L (h f List.mem_cons_self), Out.ok_bind, ih (fun g hg => h g (List.mem_cons_of_mem _ hg)), List.map_cons, List.sum_cons,
      add_assoc]

theorem brick_height_ok (L : Lawful C Ok Good Gen) {b : Brick K} (h : ∀ f ∈ b.faces, ValidFace Ok f) (p : V2 K) :
    b.height C p = .ok (b.faces.map fun f => if f.contains C p then zAt f p else 0).sum := by
  unfold height
  by_cases hc : b.contains C p = true
  · rw [if_pos hc, sumHeights_ok L h, zero_add]
  · rw [if_neg hc]
    congr 1
    symm
    apply List.sum_eq_zero
    intro x hx
    obtain ⟨f, hf, rfl⟩ := List.mem_map.1 hx
    rw [if_neg]
    intro hfc
    exact hc (List.any_eq_true.2 ⟨f, hf, hfc⟩)

/-- Without overlap, the height is that of the face at the point. -/
theorem brick_height_face (L : Lawful C Ok Good Gen) {b : Brick K} (h : ∀ f ∈ b.faces, ValidFace Ok f) (hno : NoOverlap C Gen b.faces)
    {p : V2 K} (hp : Gen p) {f : FacePrint K} (hf : f ∈ b.faces) (hi : Interior C f.border p) : b.height C p = .ok (zAt f p) := by
  rw [brick_height_ok L h]
  congr 1
  unfold NoOverlap at hno
  generalize b.faces = fs at *
  induction fs with
  | nil => simp at hf
  | cons g fs ih =>
    have hno' := List.pairwise_cons.1 hno
    rw [List.map_cons, List.sum_cons]
    have hgen : ∀ x ∈ g :: fs, (x.contains C p = true ↔ Interior C x.border p) := fun x hx => contains_gen L (h x hx).1 hp
    rcases List.mem_cons.1 hf with rfl | hf
    · rw [if_pos ((hgen f List.mem_cons_self).2 hi)]
      rw [List.sum_eq_zero, add_zero]
      intro x hx
      obtain ⟨k, hk, rfl⟩ := List.mem_map.1 hx
      rw [if_neg]
      rw [hgen k (List.mem_cons_of_mem _ hk)]
      exact fun hik => hno'.1 k hk p hp ⟨hi, hik⟩
    · rw [if_neg, zero_add]
      · exact ih (fun x hx => h x (List.mem_cons_of_mem _ hx)) hno'.2 hf
      · rw [hgen g List.mem_cons_self]
        exact fun hig => hno'.1 f hf p hp ⟨hig, hi⟩

/-- Outside the faces the height is zero. -/
theorem brick_height_out (L : Lawful C Ok Good Gen) {b : Brick K} (h : ∀ f ∈ b.faces, ValidFace Ok f)
    {p : V2 K} (hp : Gen p) (hi : ¬ Ground C b.faces p) : b.height C p = .ok 0 := by
  rw [brick_height_ok L h]
  congr 1
  apply List.sum_eq_zero
  intro x hx
  obtain ⟨f, hf, rfl⟩ := List.mem_map.1 hx
  rw [if_neg]
  rw [contains_gen L (h f hf).1 hp]
  exact fun h' => hi ⟨f, hf, h'⟩

theorem isUnder_ok (L : Lawful C Ok Good Gen) {b : Brick K} (h : ∀ f ∈ b.faces, ValidFace Ok f) {l : FacePrint K} (hl : ValidFace Ok l) :
    ∃ m, sample l.border = .ok m ∧ (b.isUnder C l = .ok false ∨ b.isUnder C l = .ok true ∧ b.containsFace C l = true ∧
      ∃ z w, l.height C m = .ok z ∧ b.height C m = .ok w ∧ z ≤ w) ∧
      (b.containsFace C l = true → ∀ z w, l.height C m = .ok z → b.height C m = .ok w → (b.isUnder C l = .ok true ↔ z ≤ w)) := by
  obtain ⟨a1, _, a2, _, a3, _, hs⟩ := sample_ok L hl.1
  generalize (⟨(a1.x + a2.x + a3.x) / 3, (a1.y + a2.y + a3.y) / 3⟩ : V2 K) = m at hs
  refine ⟨_, hs, ?_, ?_⟩
  · unfold isUnder
    have hper : l.isPerpendicular = false := decide_eq_false hl.2
    rw [hper, notDegenerate L hl, hs]
    rw [Bool.false_or, if_neg (by simp), Out.ok_bind]
    by_cases hc : b.containsFace C l = true
    · rw [if_pos hc, height_valid L hl, Out.ok_bind, brick_height_ok L h, Out.ok_bind]
      by_cases hle : (if l.contains C m then zAt l m else 0) ≤ (b.faces.map fun f => if f.contains C m then zAt f m else 0).sum
      · exact Or.inr ⟨by rw [decide_eq_true hle], hc, _, _, rfl, rfl, hle⟩
      · exact Or.inl (by rw [decide_eq_false hle])
    · rw [if_neg hc]; exact Or.inl rfl
  · intro hc z w hz hw
    unfold isUnder
    have hper : l.isPerpendicular = false := decide_eq_false hl.2
    rw [hper, notDegenerate L hl, hs]
    rw [Bool.false_or, if_neg (by simp), Out.ok_bind, if_pos hc, hz, Out.ok_bind, hw, Out.ok_bind]
    simp

/-- Insertion of a valid face: defined, and all the faces of the result are parts of those there before or of the new one. -/
theorem addFace_spec (L : Lawful C Ok Good Gen) {b : Brick K} (h : ∀ f ∈ b.faces, ValidFace Ok f) {l : FacePrint K} (hl : ValidFace Ok l) :
    ∃ b', b.addFace C l = .ok b' ∧ b'.bbox = Box2.union b.bbox l.bbox ∧
      (∀ f ∈ b'.faces, (∃ g ∈ l :: b.faces, PartOf C Gen f g) ∧ ValidFace Ok f) ∧
      ((∃ f ∈ b'.faces, PartOf C Gen f l ∧ ∀ g ∈ b.faces, f.id ≠ g.id) ∨ b.isUnder C l = .ok true →
        ∀ p, Gen p → (Ground C b'.faces p ↔ Interior C l.border p ∨ Ground C b.faces p)) := by
  have hself : ∀ f ∈ b.faces, (∃ g ∈ l :: b.faces, PartOf C Gen f g) ∧ ValidFace Ok f := fun f hf =>
    ⟨⟨f, List.mem_cons_of_mem _ hf, part_refl f⟩, h f hf⟩
  have hnew : (∃ g ∈ l :: b.faces, PartOf C Gen l g) ∧ ValidFace Ok l := ⟨⟨l, List.mem_cons_self, part_refl l⟩, hl⟩
  unfold addFace
  by_cases he : b.faces.isEmpty = true
  · rw [if_pos he]
    have he' := List.isEmpty_iff.1 he
    refine ⟨_, rfl, rfl, ?_, ?_⟩
    · intro f hf
      rw [List.mem_singleton] at hf; subst hf
      exact hnew
    · intro _ p _
      rw [he', ground_cons]
  rw [if_neg he]
  by_cases ho : b.overlaps C l.border = true
  · rw [ho, Bool.not_true, if_neg (by simp)]
    obtain ⟨m, hm, hu, _⟩ := isUnder_ok L h hl
    rcases hu with hu | ⟨hu, hc, _⟩
    · rw [hu, Out.ok_bind, if_neg (by simp)]
      obtain ⟨res, lf', hloop, h1, h2, h3⟩ := addLoop_spec L b.faces [l] (by simpa using hl) h
      rw [hloop, Out.ok_bind]
      have hval : ∀ f ∈ res ++ lf', (∃ g ∈ l :: b.faces, PartOf C Gen f g) ∧ ValidFace Ok f := by
        intro f hf
        rcases List.mem_append.1 hf with hf | hf
        · obtain ⟨r, hr, hp⟩ := h1 f hf
          exact ⟨⟨r, List.mem_cons_of_mem _ hr, hp.1⟩, part_valid hp (h r hr)⟩
        · obtain ⟨r, hr, hp⟩ := h2 f hf
          rw [List.mem_singleton] at hr; subst hr
          exact ⟨⟨r, List.mem_cons_self, hp.1⟩, part_valid hp hl⟩
      refine ⟨_, rfl, rfl, hval, ?_⟩
      rintro (⟨f, hf, hpf, hfresh⟩ | hu') p hp
      · have hne : lf' ≠ [] := by
          rintro rfl
          rw [List.append_nil] at hf
          obtain ⟨r, hr, hp⟩ := h1 f hf
          exact hfresh r hr hp.1.1
        constructor
        · rintro ⟨g, hg, hi⟩
          obtain ⟨⟨k, hk, hp'⟩, _⟩ := hval g hg
          rw [← ground_cons]
          exact ⟨k, hk, hp'.2.2 p hp hi⟩
        · intro hh
          rw [ground_append]
          refine h3 hne p hp (hh.imp (fun h => ⟨l, by simp, h⟩) id)
      · simp at hu'
    · rw [hu, Out.ok_bind, if_pos rfl]
      refine ⟨_, rfl, rfl, hself, ?_⟩
      intro _ p hp
      refine ⟨Or.inr, ?_⟩
      rintro (hh | hh)
      · exact containsFace_ground L h hl.1 hc hp hh
      · exact hh
  · rw [Bool.not_eq_true] at ho
    rw [ho, Bool.not_false, if_pos rfl]
    refine ⟨_, rfl, rfl, ?_, ?_⟩
    · intro f hf
      rcases List.mem_append.1 hf with hf | hf
      · exact hself f hf
      · rw [List.mem_singleton] at hf; subst hf; exact hnew
    · intro _ p _
      rw [ground_append, or_comm, ground_cons]
      simp [Ground]

/-- The conditions under which an insertion is right: the new face meets nothing, or it is comparable to the faces it meets, stays in one
piece until the last is handled, and is not dropped because of its height at one point although it is higher elsewhere. -/
def Fits (C : Cgal K) (Gen : V2 K → Prop) (b : Brick K) (l : FacePrint K) : Prop :=
  (∀ r ∈ b.faces, Apart C Gen r.border l.border) ∨
  ((∀ r ∈ b.faces, Comparable C Gen r l) ∧ Unsplit C l b.faces ∧
    (b.isUnder C l = .ok true → ∀ r ∈ b.faces, ∀ p, Gen p → Interior C r.border p → Interior C l.border p → zAt l p ≤ zAt r p))

theorem addFace_envelope (L : Lawful C Ok Good Gen) {b : Brick K} (h : ∀ f ∈ b.faces, ValidFace Ok f) (hno : NoOverlap C Gen b.faces)
    {l : FacePrint K} (hl : ValidFace Ok l) (hfit : Fits C Gen b l) :
    ∃ b', b.addFace C l = .ok b' ∧ (∀ f ∈ b'.faces, ValidFace Ok f) ∧ Envelope C Gen (l :: b.faces) b'.faces := by
  have hpush : ∀ bb, (∀ r ∈ b.faces, Apart C Gen r.border l.border) →
      (∀ f ∈ (⟨bb, b.faces ++ [l]⟩ : Brick K).faces, ValidFace Ok f) ∧ Envelope C Gen (l :: b.faces) (b.faces ++ [l]) := by
    intro bb hap
    refine ⟨?_, ?_, ?_, ?_, ?_⟩
    · intro f hf
      rcases List.mem_append.1 hf with hf | hf
      · exact h f hf
      · rw [List.mem_singleton] at hf; subst hf; exact hl
    · intro f hf
      exact ⟨f, by simpa [or_comm] using hf, part_refl f⟩
    · intro p _
      rw [ground_append, or_comm, ground_cons]
      simp [Ground]
    · refine noOverlap_append.2 ⟨hno, List.pairwise_singleton _ _, ?_⟩
      rintro p hp ⟨⟨f, hf, h1⟩, ⟨g, hg, h2⟩⟩
      rw [List.mem_singleton] at hg; subst hg
      exact hap f hf p hp ⟨h1, h2⟩
    · intro f hf p hp hi g hg hig
      rcases List.mem_append.1 hf with hf1 | hf1
      · rcases List.mem_cons.1 hg with rfl | hg
        · exact absurd ⟨hi, hig⟩ (hap f hf1 p hp)
        · have e1 := brick_height_face L h hno hp hf1 hi
          have e2 := brick_height_face L h hno hp hg hig
          rw [e1] at e2
          simp only [Out.ok.injEq] at e2
          exact e2.ge
      · rw [List.mem_singleton] at hf1
        rcases List.mem_cons.1 hg with hg1 | hg1
        · rw [hf1, hg1]
        · rw [hf1] at hi
          exact absurd ⟨hig, hi⟩ (hap g hg1 p hp)
  unfold addFace
  by_cases he : b.faces.isEmpty = true
  · rw [if_pos he]
    have he' := List.isEmpty_iff.1 he
    have := hpush (Box2.union b.bbox l.bbox) (by rw [he']; simp)
    refine ⟨_, rfl, ?_, ?_⟩
    · simpa [he'] using this.1
    · simpa [he'] using this.2
  rw [if_neg he]
  by_cases ho : b.overlaps C l.border = true
  · rw [ho, Bool.not_true, if_neg (by simp)]
    obtain ⟨q, hq, ⟨r, hr, hir⟩, hil⟩ := (overlaps_iff L h hl.1).1 ho
    rcases hfit with hap | ⟨hcmp, hun, hund⟩
    · exact absurd ⟨hir, hil⟩ (hap r hr q hq)
    obtain ⟨m, hm, hu, _⟩ := isUnder_ok L h hl
    rcases hu with hu | ⟨hu, hc, _⟩
    · rw [hu, Out.ok_bind, if_neg (by simp)]
      obtain ⟨res, lf', hloop, h0, h1, h2, h3, h4, h5, h6⟩ := addLoop_envelope L b.faces l hl h hcmp hno hun
      rw [hloop, Out.ok_bind]
      refine ⟨_, rfl, ?_, ?_, ?_, h4, ?_⟩
      · intro f hf
        rcases List.mem_append.1 hf with hf' | hf'
        · obtain ⟨r, hr, hp⟩ := h1 f hf'
          exact part_valid ⟨hp, h0 f hf⟩ (h r hr)
        · exact part_valid ⟨h2 f hf', h0 f hf⟩ hl
      · intro f hf
        rcases List.mem_append.1 hf with hf' | hf'
        · obtain ⟨r, hr, hp⟩ := h1 f hf'
          exact ⟨r, List.mem_cons_of_mem _ hr, hp⟩
        · exact ⟨l, List.mem_cons_self, h2 f hf'⟩
      · intro p hp
        rw [ground_cons]
        refine ⟨?_, h3 p hp⟩
        rintro ⟨f, hf, hi⟩
        rcases List.mem_append.1 hf with hf' | hf'
        · obtain ⟨r, hr, hp'⟩ := h1 f hf'
          exact Or.inr ⟨r, hr, hp'.2.2 p hp hi⟩
        · exact Or.inl ((h2 f hf').2.2 p hp hi)
      · intro f hf p hp hi g hg hig
        rcases List.mem_append.1 hf with hf' | hf'
        · rcases List.mem_cons.1 hg with rfl | hg
          · exact h5 f hf' p hp hi hig
          · obtain ⟨r, hr, hp'⟩ := h1 f hf'
            have hrg : zAt r p = zAt g p := by
              have e1 := brick_height_face L h hno hp hr (hp'.2.2 p hp hi)
              have e2 := brick_height_face L h hno hp hg hig
              rw [e1] at e2
              simpa using e2
            rw [zAt_part hp', hrg]
        · rcases List.mem_cons.1 hg with rfl | hg
          · rw [zAt_part (h2 f hf')]
          · exact h6 f hf' p hp hi g hg hig
    · rw [hu, Out.ok_bind, if_pos rfl]
      refine ⟨_, rfl, h, ?_, ?_, hno, ?_⟩
      · exact fun f hf => ⟨f, List.mem_cons_of_mem _ hf, part_refl f⟩
      · intro p hp
        rw [ground_cons]
        refine ⟨Or.inr, ?_⟩
        rintro (hh | hh)
        · exact containsFace_ground L h hl.1 hc hp hh
        · exact hh
      · intro f hf p hp hi g hg hig
        rcases List.mem_cons.1 hg with rfl | hg
        · exact hund hu f hf p hp hi hig
        · have e1 := brick_height_face L h hno hp hf hi
          have e2 := brick_height_face L h hno hp hg hig
          rw [e1] at e2
          simp only [Out.ok.injEq] at e2
          exact e2.ge
  · rw [Bool.not_eq_true] at ho
    rw [ho, Bool.not_false, if_pos rfl]
    have := hpush (Box2.union b.bbox l.bbox) fun r hr p hp hh => by
      have : b.overlaps C l.border = true := (overlaps_iff L h hl.1).2 ⟨p, hp, ⟨r, hr, hh.1⟩, hh.2⟩
      rw [ho] at this
      simp at this
    exact ⟨_, rfl, this.1, this.2⟩

/-- Envelopes compose. -/
theorem Envelope.step {gs fs fs' : List (FacePrint K)} {l : FacePrint K} (h : Envelope C Gen gs fs) (h' : Envelope C Gen (l :: fs) fs') :
    Envelope C Gen (l :: gs) fs' := by
  refine ⟨?_, ?_, h'.apart, ?_⟩
  · intro f hf
    obtain ⟨g, hg, hp⟩ := h'.part f hf
    rcases List.mem_cons.1 hg with rfl | hg
    · exact ⟨g, List.mem_cons_self, hp⟩
    · obtain ⟨k, hk, hp'⟩ := h.part g hg
      exact ⟨k, List.mem_cons_of_mem _ hk, part_trans hp hp'⟩
  · intro p hp
    rw [h'.ground p hp, ground_cons, ground_cons, h.ground p hp]
  · intro f hf p hp hi g hg hig
    rcases List.mem_cons.1 hg with rfl | hg
    · exact h'.highest f hf p hp hi g List.mem_cons_self hig
    · obtain ⟨k, hk, hik⟩ := (h.ground p hp).2 ⟨g, hg, hig⟩
      exact (h.highest k hk p hp hik g hg hig).trans (h'.highest f hf p hp hi k (List.mem_cons_of_mem _ hk) hik)

theorem Envelope.nil : Envelope C Gen [] [] :=
  ⟨by simp, fun _ _ => Iff.rfl, List.Pairwise.nil, by simp⟩

end City.Spec
