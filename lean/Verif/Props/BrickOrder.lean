import Verif.Props.BrickExact
/-!
C45, C46, C47: faces that are nowhere above each other, in any number and any order; and any two orders from the bottom up.
-/
set_option linter.unusedSectionVars false
namespace City.Props
open City City.Spec Brick
variable {K : Type} [Field K] [LinearOrder K] [IsStrictOrderedRing K]
variable {C : Cgal K} {Ok : Pwh K → Prop} {Good : C.PSet → Prop} {Gen : V2 K → Prop}

/-- A face that meets none of those there are is appended. -/
theorem addFace_apart (L : Lawful C Ok Good Gen) {b : Brick K} (hb : ∀ f ∈ b.faces, ValidFace Ok f) {l : FacePrint K} (hl : ValidFace Ok l)
    (hap : ∀ r ∈ b.faces, Apart C Gen r.border l.border) : ∃ b', b.addFace C l = .ok b' ∧ b'.faces = b.faces ++ [l] := by
  have ho : b.overlaps C l.border = false := by
    rw [← Bool.not_eq_true, overlaps_iff L hb hl.1]
    rintro ⟨p, hp, ⟨r, hr, hi⟩, hil⟩
    exact hap r hr p hp ⟨hi, hil⟩
  unfold addFace
  by_cases he : b.faces.isEmpty = true
  · rw [if_pos he]
    exact ⟨_, rfl, by rw [List.isEmpty_iff.1 he]; rfl⟩
  · rw [if_neg he, ho]
    exact ⟨_, rfl, rfl⟩

theorem build_apart (L : Lawful C Ok Good Gen) : ∀ (fs : List (FacePrint K)) (b : Brick K), (∀ f ∈ b.faces ++ fs, ValidFace Ok f) → NoOverlap C Gen (b.faces ++ fs) →
    ∃ b', build C fs b = .ok b' ∧ b'.faces = b.faces ++ fs
  | [], b, _, _ => ⟨b, rfl, by simp⟩
  | f :: fs, b, hv, hno => by
    have h1 := (List.pairwise_append.1 hno).2.2
    obtain ⟨b1, h2, h3⟩ := addFace_apart L (fun x hx => hv x (List.mem_append_left _ hx)) (hv f (by simp)) fun r hr => h1 r hr f List.mem_cons_self
    have e : b1.faces ++ fs = b.faces ++ f :: fs := by rw [h3]; simp
    obtain ⟨b2, h4, h5⟩ := build_apart L fs b1 (by rw [e]; exact hv) (by rw [e]; exact hno)
    refine ⟨b2, ?_, h5.trans e⟩
    unfold build
    rw [h2, Out.ok_bind]
    exact h4

/-- C45, C46, C47: faces that are nowhere above each other, such as the roofs of separate buildings, are stored as they are in the order of insertion; the print
then has the height of the only face above a point, and zero elsewhere. -/
theorem C46_apart (L : Lawful C Ok Good Gen) (fs : List (FacePrint K)) (hfs : ∀ f ∈ fs, ValidFace Ok f) (hno : NoOverlap C Gen fs) :
    ∃ b, build C fs Brick.empty = .ok b ∧ b.faces = fs ∧
      ∀ p, Gen p → (∀ f ∈ fs, Interior C f.border p → b.height C p = .ok (zAt f p)) ∧ (¬ Ground C fs p → b.height C p = .ok 0) := by
  obtain ⟨b, h1, h2⟩ := build_apart L fs Brick.empty (by simpa [Brick.empty] using hfs) (by simpa [Brick.empty] using hno)
  have h2 : b.faces = fs := by simpa [Brick.empty] using h2
  refine ⟨b, h1, h2, fun p hp => ⟨fun f hf hi => ?_, fun hn => ?_⟩⟩
  · exact brick_height_face L (by rw [h2]; exact hfs) (by rw [h2]; exact hno) hp (by rw [h2]; exact hf) hi
  · exact brick_height_out L (by rw [h2]; exact hfs) hp (by rw [h2]; exact hn)

theorem apart_symm {q r : Pwh K} (h : Apart C Gen q r) : Apart C Gen r q := fun p hp h' => h p hp ⟨h'.2, h'.1⟩

/-- C47: such faces can be inserted in any order. -/
theorem C47_apart (L : Lawful C Ok Good Gen) (fs gs : List (FacePrint K)) (hfs : ∀ f ∈ fs, ValidFace Ok f) (hno : NoOverlap C Gen fs) (hp : fs.Perm gs) :
    ∃ b b', build C fs Brick.empty = .ok b ∧ build C gs Brick.empty = .ok b' ∧ b.faces.Perm b'.faces ∧
      ∀ p, Gen p → (Ground C b.faces p ↔ Ground C b'.faces p) ∧ b.height C p = b'.height C p := by
  have hno' : NoOverlap C Gen gs := hp.pairwise hno fun h => apart_symm h
  obtain ⟨b, h1, h2, h3⟩ := C46_apart L fs hfs hno
  obtain ⟨b', h4, h5, h6⟩ := C46_apart L gs (fun f hf => hfs f (hp.mem_iff.2 hf)) hno'
  refine ⟨b, b', h1, h4, by rw [h2, h5]; exact hp, fun p hg => ⟨?_, ?_⟩⟩
  · rw [h2, h5]
    unfold Ground
    simp only [hp.mem_iff]
  · by_cases hgr : Ground C fs p
    · obtain ⟨f, hf, hi⟩ := hgr
      rw [(h3 p hg).1 f hf hi, (h6 p hg).1 f (hp.mem_iff.1 hf) hi]
    · rw [(h3 p hg).2 hgr, (h6 p hg).2]
      rintro ⟨f, hf, hi⟩
      exact hgr ⟨f, hp.mem_iff.2 hf, hi⟩

/-- C47, the part that holds: any two orders from the bottom up, of any number of faces, give the same ground and the same heights. -/
theorem C47_stack_partial (L : Lawful C Ok Good Gen) (fs gs : List (FacePrint K)) (hfs : ∀ f ∈ fs, ValidFace Ok f) (hs : ∀ f ∈ fs, SampleInside C Gen f)
    (hp : fs.Perm gs) (hup : fs.Pairwise (fun g f => Atop C Gen f g)) (hup' : gs.Pairwise (fun g f => Atop C Gen f g)) :
    ∃ b b', build C fs Brick.empty = .ok b ∧ build C gs Brick.empty = .ok b' ∧
      ∀ p, Gen p → (Ground C b.faces p ↔ Ground C b'.faces p) ∧ b.height C p = b'.height C p :=
  C47_order_partial L fs gs hfs hp
    (fitsAll_stack L fs [] Brick.empty hfs (by simp [Brick.empty]) (by simpa [Brick.empty] using Envelope.nil) hs (by simp) hup)
    (fitsAll_stack L gs [] Brick.empty (fun f hf => hfs f (hp.mem_iff.2 hf)) (by simp [Brick.empty]) (by simpa [Brick.empty] using Envelope.nil)
      (fun f hf => hs f (hp.mem_iff.2 hf)) (by simp) hup')

/-- The hypotheses are met: three roofs side by side. -/
example : ∃ b b', build rectCgal [sideA 4, sideB 4, other] Brick.empty = .ok b ∧ build rectCgal [other, sideA 4, sideB 4] Brick.empty = .ok b' ∧ b.faces.Perm b'.faces ∧
    ∀ p, RectGen p → (Ground rectCgal b.faces p ↔ Ground rectCgal b'.faces p) ∧ b.height rectCgal p = b'.height rectCgal p := by
  refine C47_apart rect_lawful _ _ ?_ (three_apart 4) (List.perm_append_comm (l₁ := [sideA 4, sideB 4]) (l₂ := [other]))
  simp only [List.mem_cons, List.not_mem_nil, or_false]
  rintro f (rfl | rfl | rfl)
  exacts [sideA_valid _, sideB_valid _, other_valid]

/-- The hypotheses are met: two roofs side by side and one above the first of them; the other may come first, last or between. -/
example : ∃ b b', build rectCgal [slab 7 0 0 2 2 1, slab 7 0 0 2 2 3, slab 8 4 0 6 2 2] Brick.empty = .ok b ∧
    build rectCgal [slab 7 0 0 2 2 1, slab 8 4 0 6 2 2, slab 7 0 0 2 2 3] Brick.empty = .ok b' ∧
    ∀ p, RectGen p → (Ground rectCgal b.faces p ↔ Ground rectCgal b'.faces p) ∧ b.height rectCgal p = b'.height rectCgal p := by
  have hz : ∀ i a b c d z (v : V2 ℚ), zAt (slab i a b c d z) v = z := by intro i a b c d z v; simp [zAt, slab]
  have hin : ∀ i z p, Interior rectCgal (slab i 0 0 2 2 z).border p ↔ 0 < p.x ∧ p.x < 2 ∧ 0 < p.y ∧ p.y < 2 := fun i z p =>
    slab_interior i 0 0 2 2 z (by norm_num) (by norm_num) p
  have hin' : ∀ i z p, Interior rectCgal (slab i 4 0 6 2 z).border p ↔ 4 < p.x ∧ p.x < 6 ∧ 0 < p.y ∧ p.y < 2 := fun i z p =>
    slab_interior i 4 0 6 2 z (by norm_num) (by norm_num) p
  have h1 : Atop rectCgal RectGen (slab 7 0 0 2 2 3) (slab 7 0 0 2 2 1) := fun p _ _ _ => by rw [hz, hz]; norm_num
  have h2 : ∀ z, Atop rectCgal RectGen (slab 8 4 0 6 2 2) (slab 7 0 0 2 2 z) := by
    intro z p _ h h'
    have a := (hin' 8 2 p).1 h
    have b := (hin 7 z p).1 h'
    linarith [a.1, b.2.1]
  have h3 : ∀ z, Atop rectCgal RectGen (slab 7 0 0 2 2 z) (slab 8 4 0 6 2 2) := by
    intro z p _ h' h
    have a := (hin' 8 2 p).1 h
    have b := (hin 7 z p).1 h'
    linarith [a.1, b.2.1]
  have hv : ∀ z, ValidFace RectOk (slab 7 0 0 2 2 z) := fun z => by
    have := slab_valid 7 0 0 2 2 z (by decide) (by decide); simpa using this
  have hv' : ValidFace RectOk (slab 8 4 0 6 2 2) := by
    have := slab_valid 8 4 0 6 2 2 (by decide) (by decide); simpa using this
  have hs' : SampleInside rectCgal RectGen (slab 8 4 0 6 2 2) := by
    refine ⟨⟨16 / 3, 2 / 3⟩, ?_, ⟨?_, ?_⟩, (hin' _ _ _).2 (by norm_num)⟩
    · show Out.ok _ = _
      norm_num
    · rintro ⟨n, hn⟩
      have : (3 : ℚ) * n = 16 := by rw [← hn]; norm_num
      have : (3 : ℤ) * n = 16 := by exact_mod_cast this
      omega
    · rintro ⟨n, hn⟩
      have : (3 : ℚ) * n = 2 := by rw [← hn]; norm_num
      have : (3 : ℤ) * n = 2 := by exact_mod_cast this
      omega
  refine C47_stack_partial rect_lawful _ _ ?_ ?_ ((List.Perm.swap _ _ _).cons _) ?_ ?_
  · simp only [List.mem_cons, List.not_mem_nil, or_false]
    rintro f (rfl | rfl | rfl)
    exacts [hv 1, hv 3, hv']
  · simp only [List.mem_cons, List.not_mem_nil, or_false]
    rintro f (rfl | rfl | rfl)
    exacts [sample_inside_demo 1, sample_inside_demo 3, hs']
  · simp only [List.pairwise_cons, List.mem_cons, List.not_mem_nil, or_false, forall_eq_or_imp, forall_eq]
    exact ⟨⟨h1, h2 1⟩, h2 3, by simp, .nil⟩
  · simp only [List.pairwise_cons, List.mem_cons, List.not_mem_nil, or_false, forall_eq_or_imp, forall_eq]
    exact ⟨⟨h2 1, h1⟩, h3 3, by simp, .nil⟩

end City.Props
