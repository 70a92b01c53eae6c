import Verif.Props.BrickPrint
/-!
C44, C45: exactly which insertions are right. The number of faces above every point after an insertion, in terms of the pieces left of the new face.
-/
set_option linter.unusedSectionVars false
namespace City.Props
open City City.Spec Brick
variable {K : Type} [Field K] [LinearOrder K] [IsStrictOrderedRing K]
variable {C : Cgal K} {Ok : Pwh K → Prop} {Good : C.PSet → Prop} {Gen : V2 K → Prop}

open Classical in
/-- The number of faces above a point. -/
noncomputable def layers (C : Cgal K) (fs : List (FacePrint K)) (p : V2 K) : Nat := fs.countP fun f => decide (Interior C f.border p)

/-- What is left in a brick print made of the first faces, after `occlusion` was called on it with the others, one after the other. -/
def leftAfter (C : Cgal K) : List (FacePrint K) → List (FacePrint K) → Out (List (FacePrint K))
  | lf, [] => .ok lf
  | lf, r :: rs => do
    let t ← occlusion C lf r
    leftAfter C t.2 rs

open Classical in
theorem layers_append (a b : List (FacePrint K)) (p : V2 K) : layers C (a ++ b) p = layers C a p + layers C b p := List.countP_append

open Classical in
theorem layers_cons (f : FacePrint K) (b : List (FacePrint K)) (p : V2 K) :
    layers C (f :: b) p = layers C b p + if Interior C f.border p then 1 else 0 := by
  unfold layers
  rw [List.countP_cons]
  simp

open Classical in
theorem layers_pos {fs : List (FacePrint K)} {p : V2 K} : 0 < layers C fs p ↔ Ground C fs p := by
  unfold layers Ground
  rw [List.countP_pos_iff]
  simp

theorem layers_zero {fs : List (FacePrint K)} {p : V2 K} : layers C fs p = 0 ↔ ¬ Ground C fs p := by
  rw [← layers_pos (C := C)]
  omega

open Classical in
theorem noOverlap_iff {fs : List (FacePrint K)} : NoOverlap C Gen fs ↔ ∀ p, Gen p → layers C fs p ≤ 1 := by
  induction fs with
  | nil => simp [NoOverlap, layers]
  | cons f fs ih =>
    unfold NoOverlap
    rw [List.pairwise_cons]
    constructor
    · rintro ⟨h1, h2⟩ p hp
      rw [layers_cons]
      have h3 := ih.1 h2 p hp
      split
      · rename_i hf
        have : layers C fs p = 0 := by
          rw [layers_zero]
          rintro ⟨g, hg, hi⟩
          exact h1 g hg p hp ⟨hf, hi⟩
        omega
      · omega
    · intro h
      refine ⟨?_, ih.2 fun p hp => ?_⟩
      · rintro g hg p hp ⟨hf, hi⟩
        have h1 := h p hp
        rw [layers_cons, if_pos hf] at h1
        have := layers_pos.2 (⟨g, hg, hi⟩ : Ground C fs p)
        omega
      · have h1 := h p hp
        rw [layers_cons] at h1
        omega

/-- One face cut against another: together they are above every point once. -/
theorem layers_cut {l r : FacePrint K} {ls rs : List (FacePrint K)} (h : Cut C Ok Gen l r ls rs) {p : V2 K} (hp : Gen p) :
    (Interior C l.border p ∨ Interior C r.border p → layers C ls p + layers C rs p = 1) ∧
    (¬ Interior C l.border p → layers C ls p = 0) ∧ (¬ Interior C r.border p → layers C rs p = 0) := by
  have h1 := noOverlap_iff.1 h.lapart p hp
  have h2 := noOverlap_iff.1 h.rapart p hp
  refine ⟨fun hi => ?_, fun hn => ?_, fun hn => ?_⟩
  · have h3 := h.apart p hp
    rw [← layers_pos, ← layers_pos] at h3
    have h4 := h.cover p hp hi
    rw [← layers_pos, ← layers_pos] at h4
    omega
  · rw [layers_zero]
    rintro ⟨f, hf, hi⟩
    exact hn ((h.lpart f hf).1.2.2 p hp hi)
  · rw [layers_zero]
    rintro ⟨f, hf, hi⟩
    exact hn ((h.rpart f hf).1.2.2 p hp hi)

/-- `occlusion` as a list of cuts. -/
theorem occlusion_cuts (L : Lawful C Ok Good Gen) {fs : List (FacePrint K)} (hfs : ∀ f ∈ fs, ValidFace Ok f) {l : FacePrint K} (hl : ValidFace Ok l) :
    ∃ parts : List (List (FacePrint K) × List (FacePrint K)), occlusion C fs l = .ok (parts.flatMap (·.1), parts.flatMap (·.2)) ∧
      List.Forall₂ (fun r (t : List (FacePrint K) × List (FacePrint K)) => Cut C Ok Gen l r t.1 t.2) fs parts := by
  have hmap : ∃ parts, Out.mapM (occludeOne C l) fs = .ok parts ∧
      List.Forall₂ (fun r (t : List (FacePrint K) × List (FacePrint K)) => Cut C Ok Gen l r t.1 t.2) fs parts := by
    induction fs with
    | nil => exact ⟨[], rfl, .nil⟩
    | cons r fs ih =>
      obtain ⟨ls, rs, he, hc⟩ := occludeOne_spec L hl (hfs r List.mem_cons_self)
      obtain ⟨parts, hp, hf⟩ := ih fun f hf => hfs f (List.mem_cons_of_mem _ hf)
      exact ⟨(ls, rs) :: parts, by rw [Out.mapM_cons, he, Out.ok_bind, hp, Out.ok_bind], .cons hc hf⟩
  obtain ⟨parts, hp, hf⟩ := hmap
  refine ⟨parts, ?_, hf⟩
  unfold occlusion
  rw [filter_valid L hfs, hp, Out.ok_bind]

/-- `occlusion`: above a point of the face there are as many faces, together, as there were pieces; elsewhere nothing changes. -/
theorem occlusion_layers (L : Lawful C Ok Good Gen) {fs : List (FacePrint K)} (hfs : ∀ f ∈ fs, ValidFace Ok f) {l : FacePrint K} (hl : ValidFace Ok l) :
    ∃ ls rs, occlusion C fs l = .ok (ls, rs) ∧ (∀ f ∈ ls, PartOf C Gen f l ∧ ValidFace Ok f) ∧
      (∀ f ∈ rs, ∃ g ∈ fs, PartOf C Gen f g ∧ ValidFace Ok f) ∧
      ∀ p, Gen p → (Interior C l.border p → layers C ls p + layers C rs p = fs.length) ∧
        (¬ Interior C l.border p → layers C ls p = 0 ∧ layers C rs p = layers C fs p) := by
  obtain ⟨parts, he, hf⟩ := occlusion_cuts L hfs hl
  refine ⟨_, _, he, ?_, ?_, ?_⟩
  · intro f hmem
    obtain ⟨t, ht, hft⟩ := List.mem_flatMap.1 hmem
    obtain ⟨r, hr, hc⟩ := forall₂_right hf ht
    exact ⟨(hc.lpart f hft).1, part_valid (hc.lpart f hft) hl⟩
  · intro f hmem
    obtain ⟨t, ht, hft⟩ := List.mem_flatMap.1 hmem
    obtain ⟨r, hr, hc⟩ := forall₂_right hf ht
    exact ⟨r, hr, (hc.rpart f hft).1, part_valid (hc.rpart f hft) (hfs r hr)⟩
  · intro p hp
    clear he hfs
    induction hf with
    | nil => exact ⟨fun _ => rfl, fun _ => ⟨rfl, rfl⟩⟩
    | @cons r t fs parts hc _ ih =>
      obtain ⟨h1, h2, h3⟩ := layers_cut hc hp
      refine ⟨fun hi => ?_, fun hn => ?_⟩
      · have := h1 (.inl hi)
        have := ih.1 hi
        rw [List.flatMap_cons, List.flatMap_cons, layers_append, layers_append, List.length_cons]
        omega
      · have := h2 hn
        have := ih.2 hn
        rw [List.flatMap_cons, List.flatMap_cons, layers_append, layers_append, layers_cons]
        by_cases hr : Interior C r.border p
        · have := h1 (.inr hr)
          rw [if_pos hr]
          omega
        · have := h3 hr
          rw [if_neg hr]
          omega

theorem addLoop_left : ∀ (rs lf : List (FacePrint K)), leftAfter C lf rs = do { let t ← addLoop C lf rs; .ok t.2 }
  | [], lf => rfl
  | r :: rs, lf => by
    unfold leftAfter addLoop
    cases h : occlusion C lf r with
    | ok t =>
      rw [Out.ok_bind, Out.ok_bind, addLoop_left rs t.2]
      cases h2 : addLoop C t.2 rs <;> rfl
    | thrown e => rfl
    | ub => rfl

/-- The loop: above a point of one of the faces, that is above no other, there are in the end as many faces as there were pieces when its turn came. -/
theorem addLoop_layers (L : Lawful C Ok Good Gen) : ∀ (rs lf : List (FacePrint K)), (∀ f ∈ lf, ValidFace Ok f) → (∀ r ∈ rs, ValidFace Ok r) →
    NoOverlap C Gen rs →
    ∃ res lf', addLoop C lf rs = .ok (res, lf') ∧ (∀ f ∈ res ++ lf', ValidFace Ok f) ∧
      (∀ f ∈ res, ∃ r ∈ rs, PartOf C Gen f r) ∧ (∀ f ∈ lf', ∃ g ∈ lf, PartOf C Gen f g) ∧
      ∀ p, Gen p → (¬ Ground C rs p → layers C (res ++ lf') p = layers C lf p) ∧
        ∀ (k : Nat) (r : FacePrint K), rs[k]? = some r → Interior C r.border p →
          ∃ pieces, leftAfter C lf (rs.take k) = .ok pieces ∧ layers C (res ++ lf') p = pieces.length := by
  intro rs
  induction rs with
  | nil =>
    intro lf hlf _ _
    refine ⟨[], lf, rfl, by simpa using hlf, by simp, fun f hf => ⟨f, hf, part_refl f⟩, fun p hp => ⟨fun _ => rfl, by simp⟩⟩
  | cons r rs ih =>
    intro lf hlf hrs hno
    have hno' := List.pairwise_cons.1 hno
    obtain ⟨ls, lf1, ho, h1, h2, h3⟩ := occlusion_layers L hlf (hrs r List.mem_cons_self)
    obtain ⟨res, lf', he, g1, g2, g3, g4⟩ := ih lf1 (fun f hf => (h2 f hf).choose_spec.2.2) (fun x hx => hrs x (List.mem_cons_of_mem _ hx)) hno'.2
    refine ⟨ls ++ res, lf', ?_, ?_, ?_, ?_, ?_⟩
    · unfold addLoop
      rw [ho, Out.ok_bind, he, Out.ok_bind]
    · intro f hf
      rw [List.append_assoc] at hf
      rcases List.mem_append.1 hf with hf | hf
      · exact (h1 f hf).2
      · exact g1 f hf
    · intro f hf
      rcases List.mem_append.1 hf with hf | hf
      · exact ⟨r, List.mem_cons_self, (h1 f hf).1⟩
      · obtain ⟨x, hx, hp⟩ := g2 f hf
        exact ⟨x, List.mem_cons_of_mem _ hx, hp⟩
    · intro f hf
      obtain ⟨x, hx, hp⟩ := g3 f hf
      obtain ⟨y, hy, hp', -⟩ := h2 x hx
      exact ⟨y, hy, part_trans hp hp'⟩
    · intro p hp
      obtain ⟨a1, a2⟩ := h3 p hp
      obtain ⟨b1, b2⟩ := g4 p hp
      rw [List.append_assoc, layers_append]
      refine ⟨fun hn => ?_, fun k x hk hi => ?_⟩
      · rw [ground_cons, not_or] at hn
        have := a2 hn.1
        have := b1 hn.2
        omega
      · cases k with
        | zero =>
          simp only [List.getElem?_cons_zero, Option.some.injEq] at hk
          subst hk
          have hn : ¬ Ground C rs p := by
            rintro ⟨g, hg, hig⟩
            exact hno'.1 g hg p hp ⟨hi, hig⟩
          have := a1 hi
          have := b1 hn
          exact ⟨lf, rfl, by omega⟩
        | succ k =>
          rw [List.getElem?_cons_succ] at hk
          have hn : ¬ Interior C r.border p := fun h => hno'.1 x (List.mem_of_getElem? hk) p hp ⟨h, hi⟩
          have := a2 hn
          obtain ⟨pieces, c1, c2⟩ := b2 k x hk hi
          refine ⟨pieces, ?_, by omega⟩
          rw [List.take_succ_cons]
          unfold leftAfter
          rw [ho, Out.ok_bind]
          exact c1

/-- The insertion goes through the loop: the new face meets the faces there are, and is not found to be under them. -/
def Competes (C : Cgal K) (b : Brick K) (l : FacePrint K) : Prop := b.overlaps C l.border = true ∧ b.isUnder C l = .ok false

/-- C44, C45: the number of faces above every point after a face has competed with those of a brick print without overlaps. Above the face with the number `k` it
is the number of pieces left of the new face when the first `k` have been handled; elsewhere the new face is there once. -/
theorem C45_layers (L : Lawful C Ok Good Gen) (b : Brick K) (hb : ∀ f ∈ b.faces, ValidFace Ok f) (hno : NoOverlap C Gen b.faces) (l : FacePrint K)
    (hl : ValidFace Ok l) (hc : Competes C b l) :
    ∃ b', b.addFace C l = .ok b' ∧ ∀ p, Gen p →
      (¬ Ground C b.faces p → (Interior C l.border p → layers C b'.faces p = 1) ∧ (¬ Interior C l.border p → layers C b'.faces p = 0)) ∧
      ∀ (k : Nat) (r : FacePrint K), b.faces[k]? = some r → Interior C r.border p →
        ∃ pieces, leftAfter C [l] (b.faces.take k) = .ok pieces ∧ layers C b'.faces p = pieces.length := by
  have he : ¬ b.faces.isEmpty = true := by
    intro he
    obtain ⟨p, -, ⟨f, hf, -⟩, -⟩ := (overlaps_iff L hb hl.1).1 hc.1
    rw [List.isEmpty_iff.1 he] at hf
    cases hf
  obtain ⟨res, lf', h1, h2, h3, h4, h5⟩ := addLoop_layers L b.faces [l] (by simpa using hl) hb hno
  refine ⟨⟨Box2.union b.bbox l.bbox, res ++ lf'⟩, ?_, fun p hp => ⟨fun hn => ?_, (h5 p hp).2⟩⟩
  · unfold addFace
    rw [if_neg he, hc.1, hc.2, h1]
    rfl
  · have h6 := (h5 p hp).1 hn
    rw [layers_cons] at h6
    have h0 : layers C ([] : List (FacePrint K)) p = 0 := rfl
    rw [h0] at h6
    refine ⟨fun hi => ?_, fun hi => ?_⟩
    · rw [if_pos hi] at h6; exact h6
    · rw [if_neg hi] at h6; exact h6

/-- The pieces left of the new face when the first `k` faces have been handled, for every `k` of a face, satisfy a condition on their number. -/
def LeftAlways (C : Cgal K) (l : FacePrint K) (rs : List (FacePrint K)) (ok : Nat → Prop) : Prop :=
  ∀ k, k < rs.length → ∃ pieces, leftAfter C [l] (rs.take k) = .ok pieces ∧ ok pieces.length

theorem leftAfter_ok (L : Lawful C Ok Good Gen) (rs lf : List (FacePrint K)) (h : ∀ f ∈ lf, ValidFace Ok f) (hr : ∀ r ∈ rs, ValidFace Ok r) :
    ∃ pieces, leftAfter C lf rs = .ok pieces := by
  obtain ⟨res, lf', he, -⟩ := addLoop_spec L rs lf h hr
  exact ⟨lf', by rw [addLoop_left, he, Out.ok_bind]⟩

theorem leftAlways_iff (L : Lawful C Ok Good Gen) (b : Brick K) (hb : ∀ f ∈ b.faces, ValidFace Ok f) (hno : NoOverlap C Gen b.faces) (l : FacePrint K)
    (hl : ValidFace Ok l) (hc : Competes C b l) (b' : Brick K) (he : b.addFace C l = .ok b') (ok : Nat → Prop) :
    LeftAlways C l b.faces ok ↔ ∀ p, Gen p → Ground C b.faces p → ok (layers C b'.faces p) := by
  obtain ⟨b1, h1, h2⟩ := C45_layers L b hb hno l hl hc
  rw [he] at h1
  cases h1
  constructor
  · rintro h p hp ⟨r, hr, hi⟩
    obtain ⟨k, hk⟩ := List.mem_iff_getElem?.1 hr
    obtain ⟨pieces, h3, h4⟩ := (h2 p hp).2 k r hk hi
    obtain ⟨pieces', h5, h6⟩ := h k (by by_contra hn; rw [List.getElem?_eq_none (by omega)] at hk; cases hk)
    rw [h3] at h5
    cases h5
    rw [h4]
    exact h6
  · intro h k hk
    obtain ⟨p, hp, hi⟩ := L.inner _ (hb _ (List.getElem_mem hk)).1
    obtain ⟨pieces, h3, h4⟩ := (h2 p hp).2 k _ (List.getElem?_eq_getElem hk) hi
    exact ⟨pieces, h3, h4 ▸ h p hp ⟨_, List.getElem_mem hk, hi⟩⟩

/-- C44: exactly when ground is lost: the ground after the insertion is the union if and only if something is left of the new face whenever the turn of an existing
face comes. -/
theorem C44_exact (L : Lawful C Ok Good Gen) (b : Brick K) (hb : ∀ f ∈ b.faces, ValidFace Ok f) (hno : NoOverlap C Gen b.faces) (l : FacePrint K)
    (hl : ValidFace Ok l) (hc : Competes C b l) :
    ∃ b', b.addFace C l = .ok b' ∧ ((∀ p, Gen p → (Ground C b'.faces p ↔ Interior C l.border p ∨ Ground C b.faces p)) ↔
      LeftAlways C l b.faces fun n => 0 < n) := by
  obtain ⟨b', h1, h2⟩ := C45_layers L b hb hno l hl hc
  refine ⟨b', h1, ?_⟩
  rw [leftAlways_iff L b hb hno l hl hc b' h1]
  constructor
  · intro h p hp hg
    exact layers_pos.2 ((h p hp).2 (.inr hg))
  · intro h p hp
    rw [← layers_pos]
    by_cases hg : Ground C b.faces p
    · exact ⟨fun _ => .inr hg, fun _ => h p hp hg⟩
    · have h3 := (h2 p hp).1 hg
      by_cases hi : Interior C l.border p
      · have := h3.1 hi
        exact ⟨fun _ => .inl hi, fun _ => by omega⟩
      · have := h3.2 hi
        refine ⟨fun h => by omega, ?_⟩
        rintro (h | h)
        · exact absurd h hi
        · exact absurd h hg

/-- C45: exactly when faces overlap afterwards: they do not if and only if the new face is never in several pieces when the turn of an existing face comes. -/
theorem C45_exact (L : Lawful C Ok Good Gen) (b : Brick K) (hb : ∀ f ∈ b.faces, ValidFace Ok f) (hno : NoOverlap C Gen b.faces) (l : FacePrint K)
    (hl : ValidFace Ok l) (hc : Competes C b l) :
    ∃ b', b.addFace C l = .ok b' ∧ (NoOverlap C Gen b'.faces ↔ LeftAlways C l b.faces fun n => n ≤ 1) := by
  obtain ⟨b', h1, h2⟩ := C45_layers L b hb hno l hl hc
  refine ⟨b', h1, ?_⟩
  rw [leftAlways_iff L b hb hno l hl hc b' h1, noOverlap_iff]
  constructor
  · exact fun h p hp _ => h p hp
  · intro h p hp
    by_cases hg : Ground C b.faces p
    · exact h p hp hg
    · have h3 := (h2 p hp).1 hg
      by_cases hi : Interior C l.border p
      · exact (h3.1 hi).le
      · exact (h3.2 hi).le.trans (by omega)

theorem pair_apart {f g : FacePrint ℚ} (h : ∀ p, RectGen p → ¬ (Interior rectCgal f.border p ∧ Interior rectCgal g.border p)) : NoOverlap rectCgal RectGen [f, g] := by
  simpa [NoOverlap, Apart] using h

theorem bar_other_apart : NoOverlap rectCgal RectGen [bar, other] := by
  refine pair_apart fun p _ => ?_
  rw [show bar = slab 1 1 (-1) 2 2 10 from rfl, show other = slab 3 20 0 21 1 1 from rfl, slab_interior _ _ _ _ _ _ (by norm_num) (by norm_num),
    slab_interior _ _ _ _ _ _ (by norm_num) (by norm_num)]
  rintro ⟨⟨-, h, -⟩, h', -⟩
  linarith

theorem sideA_other_apart (z : ℚ) : NoOverlap rectCgal RectGen [sideA z, other] := by
  refine pair_apart fun p _ => ?_
  rw [show sideA z = slab 1 (-1) (-1) 6 10 z from rfl, show other = slab 3 20 0 21 1 1 from rfl, slab_interior _ _ _ _ _ _ (by norm_num) (by norm_num),
    slab_interior _ _ _ _ _ _ (by norm_num) (by norm_num)]
  rintro ⟨⟨-, h, -⟩, h', -⟩
  linarith

/-- A case without harm: one piece is left of the new face every time, so no ground is lost and nothing overlaps. -/
example : ∃ b', (⟨none, [sideA 1, other]⟩ : Brick ℚ).addFace rectCgal (inside 5) = .ok b' ∧ NoOverlap rectCgal RectGen b'.faces ∧
    ∀ p, RectGen p → (Ground rectCgal b'.faces p ↔ Interior rectCgal (inside 5).border p ∨ Ground rectCgal [sideA 1, other] p) := by
  have hv : ∀ f ∈ [sideA 1, other], ValidFace RectOk f := by
    simp only [List.mem_cons, List.not_mem_nil, or_false]
    rintro f (rfl | rfl)
    exacts [sideA_valid 1, other_valid]
  have hc : Competes rectCgal ⟨none, [sideA 1, other]⟩ (inside 5) := ⟨by decide +kernel, by decide +kernel⟩
  have hleft : ∀ ok : Nat → Prop, ok 1 → LeftAlways rectCgal (inside 5) [sideA 1, other] ok := by
    rintro ok h1 (_ | _ | k) hk
    · exact ⟨[inside 5], rfl, h1⟩
    · exact ⟨[inside 5], by decide +kernel, h1⟩
    · simp at hk
  obtain ⟨b', h1, h2⟩ := C45_exact rect_lawful ⟨none, [sideA 1, other]⟩ hv (sideA_other_apart 1) (inside 5) (inside_valid 5) hc
  obtain ⟨b2, h3, h4⟩ := C44_exact rect_lawful ⟨none, [sideA 1, other]⟩ hv (sideA_other_apart 1) (inside 5) (inside_valid 5) hc
  rw [h1] at h3
  cases h3
  exact ⟨b', h1, h2.2 (hleft _ le_rfl), h4.2 (hleft _ Nat.one_pos)⟩

/-- A case where the ground of the second face is doubled: two pieces are left of the new face when its turn comes. -/
example : ∃ b', (⟨none, [bar, other]⟩ : Brick ℚ).addFace rectCgal long = .ok b' ∧ ¬ NoOverlap rectCgal RectGen b'.faces ∧
    ∀ p, RectGen p → Interior rectCgal other.border p → layers rectCgal b'.faces p = 2 := by
  have hv : ∀ f ∈ [bar, other], ValidFace RectOk f := by
    simp only [List.mem_cons, List.not_mem_nil, or_false]
    rintro f (rfl | rfl)
    exacts [bar_valid, other_valid]
  have hc : Competes rectCgal ⟨none, [bar, other]⟩ long := ⟨by decide +kernel, by decide +kernel⟩
  have hl : leftAfter rectCgal [long] ([bar, other].take 1) = .ok [slab 4 0 0 1 1 5, slab 4 2 0 3 1 5] := by decide +kernel
  obtain ⟨b', h1, h2⟩ := C45_exact rect_lawful ⟨none, [bar, other]⟩ hv bar_other_apart long long_valid hc
  obtain ⟨b2, h3, h4⟩ := C45_layers rect_lawful ⟨none, [bar, other]⟩ hv bar_other_apart long long_valid hc
  rw [h1] at h3
  cases h3
  refine ⟨b', h1, fun h => ?_, fun p hp hi => ?_⟩
  · obtain ⟨pieces, h5, h6⟩ := h2.1 h 1 (by decide)
    rw [hl] at h5
    cases h5
    simp at h6
  · obtain ⟨pieces, h5, h6⟩ := (h4 p hp).2 1 other rfl hi
    rw [hl] at h5
    cases h5
    exact h6

theorem three_apart (z : ℚ) : NoOverlap rectCgal RectGen [sideA z, sideB z, other] := by
  have e1 : sideA z = slab 1 (-1) (-1) 6 10 z := rfl
  have e2 : sideB z = slab 2 6 (-1) 10 10 z := rfl
  have e3 : other = slab 3 20 0 21 1 1 := rfl
  unfold NoOverlap
  simp only [List.pairwise_cons, List.mem_cons, List.not_mem_nil, or_false, forall_eq_or_imp, forall_eq, Apart, e1, e2, e3,
    slab_interior _ _ _ _ _ _ (show (-1 : ℚ) < 6 by norm_num) (show (-1 : ℚ) < 10 by norm_num),
    slab_interior _ _ _ _ _ _ (show (6 : ℚ) < 10 by norm_num) (show (-1 : ℚ) < 10 by norm_num),
    slab_interior _ _ _ _ _ _ (show (20 : ℚ) < 21 by norm_num) (show (0 : ℚ) < 1 by norm_num)]
  refine ⟨⟨?_, ?_⟩, ?_, ?_⟩
  · rintro p _ ⟨⟨_, h, _⟩, h', _⟩; linarith
  · rintro p _ ⟨⟨_, h, _⟩, h', _⟩; linarith
  · rintro p _ ⟨⟨_, h, _⟩, h', _⟩; linarith
  · simp

/-- A case where the third face is lost: nothing is left of the new face when its turn comes. -/
example : ∃ b', (⟨none, [sideA (-10), sideB (-10), other]⟩ : Brick ℚ).addFace rectCgal (inside (-15)) = .ok b' ∧
    ∀ p, RectGen p → Interior rectCgal other.border p → ¬ Ground rectCgal b'.faces p := by
  have hv : ∀ f ∈ [sideA (-10), sideB (-10), other], ValidFace RectOk f := by
    simp only [List.mem_cons, List.not_mem_nil, or_false]
    rintro f (rfl | rfl | rfl)
    exacts [sideA_valid _, sideB_valid _, other_valid]
  have hc : Competes rectCgal ⟨none, [sideA (-10), sideB (-10), other]⟩ (inside (-15)) := ⟨by decide +kernel, by decide +kernel⟩
  have hl : leftAfter rectCgal [inside (-15)] ([sideA (-10), sideB (-10), other].take 2) = .ok [] := by decide +kernel
  obtain ⟨b', h1, h2⟩ := C45_layers rect_lawful ⟨none, [sideA (-10), sideB (-10), other]⟩ hv (three_apart _) (inside (-15)) (inside_valid _) hc
  refine ⟨b', h1, fun p hp hi => ?_⟩
  obtain ⟨pieces, h5, h6⟩ := (h2 p hp).2 2 other rfl hi
  rw [hl] at h5
  cases h5
  exact layers_zero.1 h6

end City.Props
