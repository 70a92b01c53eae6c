import Verif.Props.BrickExact
/-!
C46: exactly what the height above every point is after an insertion.
-/
set_option linter.unusedSectionVars false
namespace City.Props
open City City.Spec Brick
variable {K : Type} [Field K] [LinearOrder K] [IsStrictOrderedRing K]
variable {C : Cgal K} {Ok : Pwh K → Prop} {Good : C.PSet → Prop} {Gen : V2 K → Prop}

open Classical in
/-- The sum of the heights of the faces above a point. -/
noncomputable def piled (C : Cgal K) (fs : List (FacePrint K)) (p : V2 K) : K := (fs.map fun f => if Interior C f.border p then zAt f p else 0).sum

theorem piled_nil (p : V2 K) : piled C [] p = 0 := rfl

open Classical in
theorem piled_cons (f : FacePrint K) (fs : List (FacePrint K)) (p : V2 K) :
    piled C (f :: fs) p = (if Interior C f.border p then zAt f p else 0) + piled C fs p := by simp [piled]

theorem piled_append (a b : List (FacePrint K)) (p : V2 K) : piled C (a ++ b) p = piled C a p + piled C b p := by
  simp [piled]

open Classical in
theorem piled_out {fs : List (FacePrint K)} {p : V2 K} (h : ¬ Ground C fs p) : piled C fs p = 0 := by
  apply List.sum_eq_zero
  intro x hx
  obtain ⟨f, hf, rfl⟩ := List.mem_map.1 hx
  rw [if_neg fun hi => h ⟨f, hf, hi⟩]

/-- Parts of one face that do not overlap. -/
theorem piled_parts {fs : List (FacePrint K)} {g : FacePrint K} (hpart : ∀ f ∈ fs, PartOf C Gen f g) (hno : NoOverlap C Gen fs) {p : V2 K} (hp : Gen p)
    (hg : Ground C fs p) : piled C fs p = zAt g p := by
  induction fs with
  | nil => obtain ⟨f, hf, _⟩ := hg; cases hf
  | cons f fs ih =>
    have hno' := List.pairwise_cons.1 hno
    rw [piled_cons]
    by_cases hi : Interior C f.border p
    · rw [if_pos hi, zAt_part (hpart f List.mem_cons_self), piled_out, add_zero]
      rintro ⟨x, hx, hix⟩
      exact hno'.1 x hx p hp ⟨hi, hix⟩
    · rw [if_neg hi, zero_add]
      refine ih (fun x hx => hpart x (List.mem_cons_of_mem _ hx)) hno'.2 ?_
      rw [ground_cons] at hg
      exact hg.resolve_left hi

/-- The height of a print is the sum. -/
theorem height_piled (L : Lawful C Ok Good Gen) {b : Brick K} (h : ∀ f ∈ b.faces, ValidFace Ok f) {p : V2 K} (hp : Gen p) :
    b.height C p = .ok (piled C b.faces p) := by
  rw [brick_height_ok L h]
  congr 1
  unfold piled
  congr 1
  apply List.map_congr_left
  intro f hf
  have := contains_gen L (h f hf).1 hp
  by_cases hi : Interior C f.border p
  · rw [if_pos hi, if_pos (this.2 hi)]
  · rw [if_neg hi, if_neg fun hc => hi (this.1 hc)]

theorem comparable_part {r l m : FacePrint K} (h : Comparable C Gen r l) (hm : PartOf C Gen m l) : Comparable C Gen r m := by
  rcases h with ⟨e, he, h⟩ | h
  · refine Or.inl ⟨e, he, fun p hp h1 h2 => ?_⟩
    rw [zAt_part hm]
    exact h p hp h1 (hm.2.2 p hp h2)
  · refine Or.inr fun p hp h1 h2 => ?_
    rw [zAt_part hm]
    exact h p hp (hm.2.2 p hp h1) h2

/-- One face cut against another: above every point the height is that of the higher one. -/
theorem piled_cut {l r : FacePrint K} {ls rs : List (FacePrint K)} (h : Cut C Ok Gen l r ls rs) (hc : Comparable C Gen l r) {p : V2 K} (hp : Gen p) :
    (Interior C l.border p → Interior C r.border p → piled C ls p + piled C rs p = max (zAt l p) (zAt r p)) ∧
    (Interior C l.border p → ¬ Interior C r.border p → piled C ls p + piled C rs p = zAt l p) ∧
    (¬ Interior C l.border p → piled C ls p = 0 ∧ piled C rs p = piled C [r] p) := by
  have hll : Ground C ls p → piled C ls p = zAt l p := piled_parts (fun f hf => (h.lpart f hf).1) h.lapart hp
  have hrr : Ground C rs p → piled C rs p = zAt r p := piled_parts (fun f hf => (h.rpart f hf).1) h.rapart hp
  have hlo : Ground C ls p → Interior C l.border p := fun ⟨f, hf, hi⟩ => (h.lpart f hf).1.2.2 p hp hi
  have hro : Ground C rs p → Interior C r.border p := fun ⟨f, hf, hi⟩ => (h.rpart f hf).1.2.2 p hp hi
  refine ⟨fun hl hr => ?_, fun hl hr => ?_, fun hl => ?_⟩
  · rcases hc with hc | hc
    · have hg := h.lwins hc p hp hl
      rw [hll hg, piled_out fun hn => h.apart p hp ⟨hg, hn⟩, add_zero]
      obtain ⟨e, he, hc⟩ := hc
      rw [max_eq_left]
      have := hc p hp hl hr
      linarith
    · obtain ⟨r', h1, h2⟩ := h.rwins hc
      have hg : Ground C rs p := ⟨r', by rw [h1]; exact List.mem_singleton_self _, (h2 p hp).2 hr⟩
      rw [hrr hg, piled_out fun hn => h.apart p hp ⟨hn, hg⟩, zero_add, max_eq_right]
      exact hc p hp hr hl
  · have hn : ¬ Ground C rs p := fun hg => hr (hro hg)
    rw [piled_out hn, add_zero]
    exact hll ((h.cover p hp (.inl hl)).resolve_right hn)
  · have hn : ¬ Ground C ls p := fun hg => hl (hlo hg)
    refine ⟨piled_out hn, ?_⟩
    rw [piled_cons, piled_nil, add_zero]
    by_cases hr : Interior C r.border p
    · rw [if_pos hr]
      exact hrr ((h.cover p hp (.inr hr)).resolve_left hn)
    · rw [if_neg hr, piled_out fun hg => hr (hro hg)]

open Classical in
/-- The height at a point of a face of which there are as many copies as pieces of the new face: the higher of the two once, if a piece is there, and the face
itself for all the other pieces. -/
noncomputable def copied (n : Nat) (there : Prop) (zr zl : K) : K := if there then ((n : K) - 1) * zr + max zr zl else (n : K) * zr

theorem occlusion_piled (L : Lawful C Ok Good Gen) {fs : List (FacePrint K)} {g : FacePrint K} (hfs : ∀ f ∈ fs, ValidFace Ok f)
    (hpart : ∀ f ∈ fs, PartOf C Gen f g) (hno : NoOverlap C Gen fs) {l : FacePrint K} (hl : ValidFace Ok l) (hc : Comparable C Gen l g) :
    ∃ ls rs, occlusion C fs l = .ok (ls, rs) ∧ (∀ f ∈ rs, PartOf C Gen f g ∧ ValidFace Ok f) ∧ NoOverlap C Gen rs ∧
      ∀ p, Gen p → (Interior C l.border p → piled C ls p + piled C rs p = copied fs.length (Ground C fs p) (zAt l p) (zAt g p)) ∧
        (¬ Interior C l.border p → piled C ls p = 0 ∧ piled C rs p = piled C fs p ∧ (Ground C rs p ↔ Ground C fs p)) := by
  obtain ⟨parts, he, hf⟩ := occlusion_cuts L hfs hl
  refine ⟨_, _, he, ?_, ?_, ?_⟩
  · intro f hmem
    obtain ⟨t, ht, hft⟩ := List.mem_flatMap.1 hmem
    obtain ⟨r, hr, hcut⟩ := forall₂_right hf ht
    exact ⟨part_trans (hcut.rpart f hft).1 (hpart r hr), part_valid (hcut.rpart f hft) (hfs r hr)⟩
  · rw [noOverlap_iff] at hno ⊢
    intro p hp
    refine le_trans ?_ (hno p hp)
    clear he hfs hno hpart
    induction hf with
    | nil => exact le_rfl
    | @cons r t fs parts hcut _ ih =>
      obtain ⟨h1, h2, h3⟩ := layers_cut hcut hp
      rw [List.flatMap_cons, layers_append, layers_cons]
      by_cases hr : Interior C r.border p
      · have := h1 (.inr hr)
        rw [if_pos hr]
        omega
      · have := h3 hr
        rw [if_neg hr]
        omega
  · intro p hp
    clear he hfs
    induction hf with
    | nil =>
      refine ⟨fun _ => ?_, fun _ => ⟨rfl, rfl, Iff.rfl⟩⟩
      have : ¬ Ground C ([] : List (FacePrint K)) p := by rintro ⟨f, hf, _⟩; cases hf
      simp [copied, this, piled_nil]
    | @cons r t fs parts hcut _ ih =>
      have hno' := List.pairwise_cons.1 hno
      obtain ⟨h1, h2, h3⟩ := piled_cut hcut (comparable_part hc (hpart r List.mem_cons_self)) hp
      obtain ⟨i1, i2⟩ := ih (fun f hf => hpart f (List.mem_cons_of_mem _ hf)) hno'.2
      refine ⟨fun hi => ?_, fun hn => ?_⟩
      · have i1 := i1 hi
        rw [List.flatMap_cons, List.flatMap_cons, piled_append, piled_append, List.length_cons]
        by_cases hr : Interior C r.border p
        · have hg : ¬ Ground C fs p := by
            rintro ⟨x, hx, hix⟩
            exact hno'.1 x hx p hp ⟨hr, hix⟩
          have hg' : Ground C (r :: fs) p := ⟨r, List.mem_cons_self, hr⟩
          have h1 := h1 hi hr
          rw [zAt_part (hpart r List.mem_cons_self)] at h1
          unfold copied at i1 ⊢
          rw [if_neg hg] at i1
          rw [if_pos hg']
          push_cast
          linarith
        · have h2 := h2 hi hr
          have hgg : Ground C (r :: fs) p ↔ Ground C fs p := by rw [ground_cons]; exact or_iff_right hr
          unfold copied at i1 ⊢
          by_cases hg : Ground C fs p
          · rw [if_pos hg] at i1
            rw [if_pos (hgg.2 hg)]
            push_cast
            linarith
          · rw [if_neg hg] at i1
            rw [if_neg fun h => hg (hgg.1 h)]
            push_cast
            linarith
      · obtain ⟨a1, a2⟩ := h3 hn
        obtain ⟨b1, b2, b3⟩ := i2 hn
        obtain ⟨c1, c2, c3⟩ := layers_cut hcut hp
        have hgr : Ground C t.2 p ↔ Interior C r.border p := by
          constructor
          · rintro ⟨f, hf, hi⟩
            exact (hcut.rpart f hf).1.2.2 p hp hi
          · intro hi
            have := c1 (.inr hi)
            have := c2 hn
            exact layers_pos.1 (by omega)
        rw [List.flatMap_cons, List.flatMap_cons, piled_append, piled_append, a1, a2, b1, b2, ground_append, ground_cons, b3, hgr]
        refine ⟨by simp, ?_, Iff.rfl⟩
        rw [piled_cons, piled_cons, piled_nil, add_zero]

theorem addLoop_piled (L : Lawful C Ok Good Gen) (g : FacePrint K) : ∀ (rs lf : List (FacePrint K)), (∀ f ∈ lf, ValidFace Ok f) →
    (∀ f ∈ lf, PartOf C Gen f g) → NoOverlap C Gen lf → (∀ r ∈ rs, ValidFace Ok r) → NoOverlap C Gen rs → (∀ r ∈ rs, Comparable C Gen r g) →
    ∃ res lf', addLoop C lf rs = .ok (res, lf') ∧
      ∀ p, Gen p → (¬ Ground C rs p → piled C (res ++ lf') p = piled C lf p) ∧
        ∀ (k : Nat) (r : FacePrint K), rs[k]? = some r → Interior C r.border p →
          ∃ pieces, leftAfter C lf (rs.take k) = .ok pieces ∧ piled C (res ++ lf') p = copied pieces.length (Ground C lf p) (zAt r p) (zAt g p) := by
  intro rs
  induction rs with
  | nil =>
    intro lf _ _ _ _ _ _
    exact ⟨[], lf, rfl, fun p hp => ⟨fun _ => rfl, by simp⟩⟩
  | cons r rs ih =>
    intro lf hlf hpart hlno hrs hno hcmp
    have hno' := List.pairwise_cons.1 hno
    obtain ⟨ls, lf1, ho, h1, h2, h3⟩ := occlusion_piled L hlf hpart hlno (hrs r List.mem_cons_self) (hcmp r List.mem_cons_self)
    obtain ⟨res, lf', he, g4⟩ := ih lf1 (fun f hf => (h1 f hf).2) (fun f hf => (h1 f hf).1) h2 (fun x hx => hrs x (List.mem_cons_of_mem _ hx)) hno'.2
      fun x hx => hcmp x (List.mem_cons_of_mem _ hx)
    refine ⟨ls ++ res, lf', ?_, ?_⟩
    · unfold addLoop
      rw [ho, Out.ok_bind, he, Out.ok_bind]
    · intro p hp
      obtain ⟨a1, a2⟩ := h3 p hp
      obtain ⟨b1, b2⟩ := g4 p hp
      rw [List.append_assoc, piled_append]
      refine ⟨fun hn => ?_, fun k x hk hi => ?_⟩
      · rw [ground_cons, not_or] at hn
        obtain ⟨a3, a4, -⟩ := a2 hn.1
        rw [a3, b1 hn.2, a4, zero_add]
      · cases k with
        | zero =>
          simp only [List.getElem?_cons_zero, Option.some.injEq] at hk
          subst hk
          have hn : ¬ Ground C rs p := by
            rintro ⟨y, hy, hiy⟩
            exact hno'.1 y hy p hp ⟨hi, hiy⟩
          exact ⟨lf, rfl, by rw [b1 hn]; exact a1 hi⟩
        | succ k =>
          rw [List.getElem?_cons_succ] at hk
          have hn : ¬ Interior C r.border p := fun h => hno'.1 x (List.mem_of_getElem? hk) p hp ⟨h, hi⟩
          obtain ⟨a3, -, a5⟩ := a2 hn
          obtain ⟨pieces, c1, c2⟩ := b2 k x hk hi
          refine ⟨pieces, ?_, ?_⟩
          · rw [List.take_succ_cons]
            unfold leftAfter
            rw [ho, Out.ok_bind]
            exact c1
          · rw [a3, zero_add, c2]
            congr 1
            exact propext a5

/-- C46: the exact height above every point after a face has competed with those of a brick print without overlaps, none of which it crosses. Above the face with
the number `k` it is the height of that face once for every piece left of the new face when its turn comes, except that the higher of both counts where both are;
elsewhere it is the height of the new face. -/
theorem C46_exact (L : Lawful C Ok Good Gen) (b : Brick K) (hb : ∀ f ∈ b.faces, ValidFace Ok f) (hno : NoOverlap C Gen b.faces) (l : FacePrint K)
    (hl : ValidFace Ok l) (hc : Competes C b l) (hcmp : ∀ r ∈ b.faces, Comparable C Gen r l) :
    ∃ b', b.addFace C l = .ok b' ∧ ∀ p, Gen p →
      (¬ Ground C b.faces p → (Interior C l.border p → b'.height C p = .ok (zAt l p)) ∧ (¬ Interior C l.border p → b'.height C p = .ok 0)) ∧
      ∀ (k : Nat) (r : FacePrint K), b.faces[k]? = some r → Interior C r.border p →
        ∃ pieces, leftAfter C [l] (b.faces.take k) = .ok pieces ∧
          (Interior C l.border p → b'.height C p = .ok (((pieces.length : K) - 1) * zAt r p + max (zAt r p) (zAt l p))) ∧
          (¬ Interior C l.border p → b'.height C p = .ok ((pieces.length : K) * zAt r p)) := by
  have he : ¬ b.faces.isEmpty = true := by
    intro he
    obtain ⟨p, -, ⟨f, hf, -⟩, -⟩ := (overlaps_iff L hb hl.1).1 hc.1
    rw [List.isEmpty_iff.1 he] at hf
    cases hf
  obtain ⟨res, lf', h1, h2, -⟩ := addLoop_layers L b.faces [l] (by simpa using hl) hb hno
  obtain ⟨res2, lf2, h3, h4⟩ := addLoop_piled L l b.faces [l] (by simpa using hl) (by intro f hf; rw [List.mem_singleton.1 hf]; exact part_refl l)
    (List.pairwise_singleton _ _) hb hno hcmp
  rw [h1] at h3
  cases h3
  have hg : ∀ p, Ground C [l] p ↔ Interior C l.border p := fun p => by simp [Ground]
  refine ⟨⟨Box2.union b.bbox l.bbox, res ++ lf'⟩, ?_, fun p hp => ?_⟩
  · unfold addFace
    rw [if_neg he, hc.1, hc.2, h1]
    rfl
  · rw [height_piled L (b := ⟨Box2.union b.bbox l.bbox, res ++ lf'⟩) h2 hp]
    obtain ⟨a1, a2⟩ := h4 p hp
    refine ⟨fun hn => ?_, fun k r hk hi => ?_⟩
    · have a1 := a1 hn
      rw [piled_cons, piled_nil, add_zero] at a1
      refine ⟨fun hi => ?_, fun hi => ?_⟩
      · rw [if_pos hi] at a1; exact congrArg _ a1
      · rw [if_neg hi] at a1; exact congrArg _ a1
    · obtain ⟨pieces, c1, c2⟩ := a2 k r hk hi
      refine ⟨pieces, c1, fun h => ?_, fun h => ?_⟩
      · rw [copied, if_pos ((hg p).2 h)] at c2; exact congrArg _ c2
      · rw [copied, if_neg fun hx => h ((hg p).1 hx)] at c2; exact congrArg _ c2

/-- The print of `C46_refuted_double`: the height of the second face is doubled at all its points, that of the first is right. -/
example : ∃ b', (⟨none, [bar, other]⟩ : Brick ℚ).addFace rectCgal long = .ok b' ∧
    (∀ p, RectGen p → Interior rectCgal other.border p → b'.height rectCgal p = .ok 2) ∧
    (∀ p, RectGen p → Interior rectCgal bar.border p → b'.height rectCgal p = .ok 10) := by
  have hv : ∀ f ∈ [bar, other], ValidFace RectOk f := by
    simp only [List.mem_cons, List.not_mem_nil, or_false]
    rintro f (rfl | rfl)
    exacts [bar_valid, other_valid]
  have hc : Competes rectCgal ⟨none, [bar, other]⟩ long := ⟨by decide +kernel, by decide +kernel⟩
  have hl : leftAfter rectCgal [long] ([bar, other].take 1) = .ok [slab 4 0 0 1 1 5, slab 4 2 0 3 1 5] := by decide +kernel
  have zb : ∀ p, zAt bar p = 10 := fun p => by simp [zAt, bar, slab]
  have zo : ∀ p, zAt other p = 1 := fun p => by simp [zAt, other, slab]
  have zl : ∀ p, zAt long p = 5 := fun p => by simp [zAt, long, slab]
  have ho : ∀ p, Interior rectCgal other.border p → ¬ Interior rectCgal long.border p := by
    intro p
    rw [show long = slab 4 0 0 3 1 5 from rfl, show other = slab 3 20 0 21 1 1 from rfl, slab_interior _ _ _ _ _ _ (by norm_num) (by norm_num),
      slab_interior _ _ _ _ _ _ (by norm_num) (by norm_num)]
    rintro ⟨h, _⟩ ⟨_, h', _⟩
    linarith
  have hcmp : ∀ r ∈ [bar, other], Comparable rectCgal RectGen r long := by
    simp only [List.mem_cons, List.not_mem_nil, or_false]
    rintro r (rfl | rfl)
    · exact .inl ⟨5, by norm_num, fun p _ _ _ => by rw [zb, zl]; norm_num⟩
    · exact .inl ⟨1, by norm_num, fun p _ h1 h2 => absurd h2 (ho p h1)⟩
  obtain ⟨b', h1, h2⟩ := C46_exact rect_lawful ⟨none, [bar, other]⟩ hv bar_other_apart long long_valid hc hcmp
  refine ⟨b', h1, fun p hp hi => ?_, fun p hp hi => ?_⟩
  · obtain ⟨pieces, h3, -, h4⟩ := (h2 p hp).2 1 other rfl hi
    rw [hl] at h3
    cases h3
    rw [h4 (ho p hi), zo]
    norm_num
  · obtain ⟨pieces, h3, h4, h5⟩ := (h2 p hp).2 0 bar rfl hi
    cases h3
    by_cases hil : Interior rectCgal long.border p
    · rw [h4 hil, zb, zl]
      norm_num
    · rw [h5 hil, zb]
      norm_num

end City.Props
