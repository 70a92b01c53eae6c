import Verif.Model.Query
import Verif.Props.BrickPrint
/-!
C78: point queries on footprints.
-/
set_option linter.unusedSectionVars false
namespace City.Props
open City City.Spec Brick
variable {K : Type} [Field K] [LinearOrder K] [IsStrictOrderedRing K]
variable {C : Cgal K} {Ok : Pwh K → Prop} {Good : C.PSet → Prop} {Gen : V2 K → Prop}

/-- C78 as stated: a query with double coordinates has the answer of the query with the same exact coordinates. False: `C78_refuted`. -/
def C78_full : Prop := ∀ (C : Cgal ℚ) (Ok : Pwh ℚ → Prop) (Good : C.PSet → Prop) (Gen : V2 ℚ → Prop), Lawful C Ok Good Gen →
  ∀ (fs : List (FacePrint ℚ)) (b : Brick ℚ), (∀ f ∈ fs, ValidFace Ok f) → build C fs Brick.empty = .ok b →
    ∀ p, b.heightInexact C p = b.height C p

/-- A horizontal face whose plane has the coefficients 0, 0, 2^-60, -2^-60: the height 1. -/
def thinPlane : FacePrint ℚ := ⟨9, rect ⟨20, 0, 21, 1⟩, ⟨0, 0, 1 / 2 ^ 60, -1 / 2 ^ 60⟩⟩

theorem thinPlane_valid : ValidFace RectOk thinPlane := by
  refine ⟨?_, by show (1 : ℚ) / 2 ^ 60 ≠ 0; norm_num⟩
  have := (slab_valid 3 20 0 21 1 1 (by decide) (by decide)).1
  simpa [slab, thinPlane] using this

/-- C78 is false: a face whose plane has small coefficients makes the query throw, even at a point of another face. -/
theorem C78_refuted : ¬ C78_full := by
  intro h
  have hb : build rectCgal [sideA 5, thinPlane] Brick.empty = .ok ⟨some ⟨-1, -1, 21, 10⟩, [sideA 5, thinPlane]⟩ := by decide +kernel
  have := h rectCgal RectOk RectGood RectGen rect_lawful _ _ (by
    intro f hf
    simp only [List.mem_cons, List.not_mem_nil, or_false] at hf
    rcases hf with rfl | rfl
    · exact sideA_valid _
    · exact thinPlane_valid) hb ⟨1 / 2, 1 / 2⟩
  have h1 : (⟨some ⟨-1, -1, 21, 10⟩, [sideA 5, thinPlane]⟩ : Brick ℚ).height rectCgal ⟨1 / 2, 1 / 2⟩ = .ok 5 := by decide +kernel
  have h2 : (⟨some ⟨-1, -1, 21, 10⟩, [sideA 5, thinPlane]⟩ : Brick ℚ).heightInexact rectCgal ⟨1 / 2, 1 / 2⟩ = .thrown .overflowError := by
    decide +kernel
  rw [h1, h2] at this
  cases this

/-- C78, what `get_height` of a point with double coordinates is, for every library, every brick print and every point: zero when no face
has the point; an exception when one has and any face of the brick print has a small third coefficient; otherwise the sum of the heights of
the planes of the faces that have the point and are not degenerate. -/
theorem C78_inexact (C : Cgal K) (b : Brick K) (p : V2 K) :
    ((∀ f ∈ b.faces, ¬ InRegion C f.border p) → b.heightInexact C p = .ok 0) ∧
    ((∃ f ∈ b.faces, InRegion C f.border p) → (∃ f ∈ b.faces, |C.toDouble f.plane.c| < FacePrint.eps) →
      b.heightInexact C p = .thrown .overflowError) ∧
    ((∃ f ∈ b.faces, InRegion C f.border p) → (∀ f ∈ b.faces, FacePrint.eps ≤ |C.toDouble f.plane.c|) →
      ∃ zs, List.Forall₂ (fun (f : FacePrint K) z =>
          (InRegion C f.border p ∧ f.isDegenerate C = false →
            OnPlane ⟨C.toDouble f.plane.a, C.toDouble f.plane.b, C.toDouble f.plane.c, C.toDouble f.plane.d⟩ p.x p.y z) ∧
          (¬ (InRegion C f.border p ∧ f.isDegenerate C = false) → z = 0)) b.faces zs ∧
        b.heightInexact C p = .ok zs.sum) := by
  have hany : b.containsInexact C p = true ↔ ∃ f ∈ b.faces, InRegion C f.border p := by
    unfold Brick.containsInexact Brick.contains
    rw [List.any_eq_true]
    simp only [contains_iff]
  refine ⟨fun h => ?_, fun h hs => ?_, fun h hs => ?_⟩
  · unfold Brick.heightInexact
    rw [if_neg]
    rw [hany]
    push Not
    exact h
  · unfold Brick.heightInexact
    rw [if_pos (hany.2 h)]
    generalize (0 : K) = z
    obtain ⟨f, hf, hfs⟩ := hs
    clear h hany
    revert hf
    generalize b.faces = fs
    intro hf
    induction fs generalizing z with
    | nil => simp at hf
    | cons g gs ih =>
      unfold sumInexact
      by_cases hg : |C.toDouble g.plane.c| < FacePrint.eps
      · have : g.heightInexact C p = .thrown .overflowError := by
          unfold FacePrint.heightInexact FacePrint.planeHeightInexact
          rw [if_pos hg]; rfl
        rw [this]; rfl
      · rcases List.mem_cons.1 hf with rfl | hf
        · exact absurd hfs hg
        · have : ∃ w, g.heightInexact C p = .ok w := by
            unfold FacePrint.heightInexact FacePrint.planeHeightInexact
            rw [if_neg hg]
            exact ⟨_, rfl⟩
          obtain ⟨w, hw⟩ := this
          rw [hw, Out.ok_bind]
          exact ih _ hf
  · unfold Brick.heightInexact
    rw [if_pos (hany.2 h)]
    have main : ∀ (fs : List (FacePrint K)) (z : K), (∀ f ∈ fs, FacePrint.eps ≤ |C.toDouble f.plane.c|) →
        ∃ zs, List.Forall₂ (fun (f : FacePrint K) z =>
          (InRegion C f.border p ∧ f.isDegenerate C = false →
            OnPlane ⟨C.toDouble f.plane.a, C.toDouble f.plane.b, C.toDouble f.plane.c, C.toDouble f.plane.d⟩ p.x p.y z) ∧
          (¬ (InRegion C f.border p ∧ f.isDegenerate C = false) → z = 0)) fs zs ∧
        sumInexact C p fs z = .ok (z + zs.sum) := by
      intro fs
      induction fs with
      | nil => intro z _; exact ⟨[], .nil, by simp [sumInexact]⟩
      | cons g gs ih =>
        intro z hgs
        have hg := hgs g List.mem_cons_self
        have hc : C.toDouble g.plane.c ≠ 0 := by
          intro h0
          rw [h0, abs_zero] at hg
          have : (0 : K) < FacePrint.eps := by unfold FacePrint.eps; positivity
          linarith
        have hz : ∃ w, g.heightInexact C p = .ok w ∧ (InRegion C g.border p ∧ g.isDegenerate C = false →
            OnPlane ⟨C.toDouble g.plane.a, C.toDouble g.plane.b, C.toDouble g.plane.c, C.toDouble g.plane.d⟩ p.x p.y w) ∧
            (¬ (InRegion C g.border p ∧ g.isDegenerate C = false) → w = 0) := by
          unfold FacePrint.heightInexact FacePrint.planeHeightInexact
          rw [if_neg (not_lt.2 hg), Out.ok_bind]
          refine ⟨_, rfl, ?_, ?_⟩
          · rintro ⟨h1, h2⟩
            rw [← contains_iff] at h1
            unfold FacePrint.containsInexact
            rw [h1, h2]
            unfold OnPlane FacePrint.times
            simp only [Bool.not_false, Bool.and_self, if_true]
            field_simp
            ring
          · intro hn
            unfold FacePrint.times
            rw [if_neg]
            intro ht
            rw [Bool.and_eq_true, Bool.not_eq_true'] at ht
            exact hn ⟨(contains_iff C g p).1 ht.2, ht.1⟩
        obtain ⟨w, hw, hw'⟩ := hz
        obtain ⟨zs, hzs, hsum⟩ := ih (z + w) fun f hf => hgs f (List.mem_cons_of_mem _ hf)
        refine ⟨w :: zs, .cons hw' hzs, ?_⟩
        unfold sumInexact
        rw [hw, Out.ok_bind, hsum, List.sum_cons, add_assoc]
    obtain ⟨zs, h1, h2⟩ := main b.faces 0 hs
    exact ⟨zs, h1, by rw [h2, zero_add]⟩

/-- C78, the part that holds: with an exact `to_double` and no small third coefficient the two queries agree, for every brick print. -/
theorem C78_agree_partial (C : Cgal K) (hd : ∀ x, C.toDouble x = x) (b : Brick K) (p : V2 K)
    (hc : ∀ f ∈ b.faces, FacePrint.eps ≤ |f.plane.c|) :
    b.heightInexact C p = b.height C p ∧ b.containsInexact C p = b.contains C p := by
  refine ⟨?_, rfl⟩
  have hf : ∀ f ∈ b.faces, f.heightInexact C p = f.height C p := by
    intro f hf
    have h := hc f hf
    have h0 : f.plane.c ≠ 0 := by
      intro h0
      rw [h0, abs_zero] at h
      have : (0 : K) < FacePrint.eps := by unfold FacePrint.eps; positivity
      linarith
    unfold FacePrint.heightInexact FacePrint.height FacePrint.planeHeightInexact FacePrint.planeHeight
    rw [if_neg h0, if_neg (by rw [hd]; exact not_lt.2 h), hd, hd, hd, hd, hd]
    rfl
  unfold Brick.heightInexact Brick.height
  have : b.containsInexact C p = b.contains C p := rfl
  rw [this]
  split
  · generalize (0 : K) = z
    revert hf
    clear hc this
    generalize b.faces = fs
    induction fs generalizing z with
    | nil => intro _; rfl
    | cons f fs ih =>
      intro hf
      unfold sumInexact sumHeights
      rw [hf f List.mem_cons_self]
      cases f.height C p with
      | ok w => rw [Out.ok_bind, Out.ok_bind]; exact ih _ fun g hg => hf g (List.mem_cons_of_mem _ hg)
      | thrown e => rfl
      | ub => rfl
  · rfl

/-- The hypotheses are met: two faces that are side by side, at a point of the first one. -/
example : (⟨some ⟨-1, -1, 10, 10⟩, [sideA 5, sideB 7]⟩ : Brick ℚ).heightInexact rectCgal ⟨1 / 2, 1 / 2⟩ = .ok 5 := by
  rw [(C78_agree_partial rectCgal (fun _ => rfl) _ _ (by
    intro f hf
    simp only [List.mem_cons, List.not_mem_nil, or_false] at hf
    rcases hf with rfl | rfl <;> (unfold FacePrint.eps; norm_num [sideA, sideB, slab]))).1]
  decide +kernel

/-- C78: `in_domain` says whether the point is in the closed bounding box; no point is in the domain of a brick print without box. -/
theorem C78_in_domain (b : Brick K) (p : V2 K) : b.inDomain p = true ↔ BoxHas b.bbox p := by
  unfold Brick.inDomain BoxHas
  cases b.bbox with
  | none => simp [Box2.overlap]
  | some B =>
    simp only [Box2.overlap, Bool.not_eq_true', Bool.or_eq_false_iff, Option.some.injEq, exists_eq_left']
    rw [decide_eq_false_iff_not, decide_eq_false_iff_not, decide_eq_false_iff_not, decide_eq_false_iff_not, not_lt, not_lt, not_lt, not_lt]
    show ((p.x ≤ B.xmax ∧ B.xmin ≤ p.x) ∧ p.y ≤ B.ymax) ∧ B.ymin ≤ p.y ↔ _
    tauto

/-- A generic point inside a valid polygon is in the box of its outer boundary. -/
theorem interior_box (L : Lawful C Ok Good Gen) {q : Pwh K} (hq : Ok q) {p : V2 K} (hp : Gen p) (hi : Interior C q p) {o : Option (Box2 K)}
    (ho : ∀ v ∈ q.outer, BoxHas o v) : BoxHas o p := by
  have h3 := L.three q hq
  match hout : q.outer, h3 with
  | a :: t, _ =>
    obtain ⟨B, hB, _⟩ := ho a (by rw [hout]; exact List.mem_cons_self)
    refine ⟨B, hB, ?_⟩
    have hv : ∀ v ∈ q.outer, B.xmin ≤ v.x ∧ v.x ≤ B.xmax ∧ B.ymin ≤ v.y ∧ v.y ≤ B.ymax := by
      intro v hv
      obtain ⟨B', hB', h⟩ := ho v hv
      rw [hB] at hB'
      cases hB'
      exact h
    have k1 := L.hull q hq p hp hi 1 0 (-B.xmin) fun v h => by have := (hv v h).1; linarith
    have k2 := L.hull q hq p hp hi (-1) 0 B.xmax fun v h => by have := (hv v h).2.1; linarith
    have k3 := L.hull q hq p hp hi 0 1 (-B.ymin) fun v h => by have := (hv v h).2.2.1; linarith
    have k4 := L.hull q hq p hp hi 0 (-1) B.ymax fun v h => by have := (hv v h).2.2.2; linarith
    exact ⟨by linarith, by linarith, by linarith, by linarith⟩

/-- C78: for every brick print built by insertions and every point that is on no edge: a point the print contains is in its domain, and
it is a point of one of the faces inserted; a point that is not contained, in particular one outside the domain, has the height zero, with
either query. -/
theorem C78_domain (L : Lawful C Ok Good Gen) (fs : List (FacePrint K)) (hfs : ∀ f ∈ fs, ValidFace Ok f) :
    ∃ b, build C fs Brick.empty = .ok b ∧ ∀ p, Gen p →
      (b.contains C p = true → b.inDomain p = true ∧ ∃ f ∈ fs, Interior C f.border p) ∧
      (b.inDomain p = false → b.contains C p = false) ∧
      (b.contains C p = false → b.height C p = .ok 0 ∧ b.heightInexact C p = .ok 0) := by
  obtain ⟨b, h1, h2, h3⟩ := C44_no_new_ground L fs hfs
  have main : ∀ p, Gen p → b.contains C p = true → b.inDomain p = true ∧ ∃ f ∈ fs, Interior C f.border p := by
    intro p hp hc
    have hg : Ground C b.faces p := by
      unfold Brick.contains at hc
      rw [List.any_eq_true] at hc
      obtain ⟨f, hf, hfp⟩ := hc
      exact ⟨f, hf, (contains_gen L (h2 f hf).1.1 hp).1 hfp⟩
    obtain ⟨f, hf, hi⟩ := h3 p hp hg
    refine ⟨?_, f, hf, hi⟩
    rw [C78_in_domain]
    exact interior_box L (hfs f hf).1 hp hi ((C49_contains C fs Brick.empty b h1).2 f hf)
  refine ⟨b, h1, fun p hp => ⟨main p hp, fun hn => ?_, fun hn => ⟨?_, ?_⟩⟩⟩
  · by_contra hc
    rw [Bool.not_eq_false] at hc
    rw [(main p hp hc).1] at hn
    cases hn
  · unfold Brick.height
    rw [hn]; rfl
  · unfold Brick.heightInexact
    have : b.containsInexact C p = false := hn
    rw [this]; rfl

/-- The hypotheses are met, and the three kinds of points exist: contained, in the domain only, outside. -/
example : ∃ b, build rectCgal [sideA 5, other] Brick.empty = .ok b ∧
    b.contains rectCgal ⟨1 / 2, 1 / 2⟩ = true ∧ b.inDomain (⟨1 / 2, 1 / 2⟩ : V2 ℚ) = true ∧
    b.contains rectCgal ⟨31 / 2, 1 / 2⟩ = false ∧ b.inDomain (⟨31 / 2, 1 / 2⟩ : V2 ℚ) = true ∧
    b.inDomain (⟨61 / 2, 1 / 2⟩ : V2 ℚ) = false :=
  ⟨⟨some ⟨-1, -1, 21, 10⟩, [sideA 5, other]⟩, by decide +kernel, by decide +kernel, by decide +kernel, by decide +kernel, by decide +kernel,
    by decide +kernel⟩

end City.Props
