import Verif.Lemmas.SurfDemo
import Verif.Props.Surf
/-!
C59: pruning. Also the examples for C57 and C58.
-/
set_option linter.unusedSectionVars false
namespace City.Props
open City City.Spec V3

section
variable {K : Type} [Field K] [LinearOrder K] [IsStrictOrderedRing K] {S S' : Surf K}

/-- What is assumed of the library that computes the normal of a facet from its corners: it is a positive multiple of the area vector. -/
def NormalLaw (nrm : List (V3 K) → V3 K) : Prop := ∀ l, ∃ c, 0 < c ∧ nrm l = smul c (vectorArea2 l)

/-- The area vectors of two facets are parallel (or one is zero). -/
def ParallelFacets (S : Surf K) (f g : Nat) : Prop := cross (facetVector S f) (facetVector S g) = zero

/-- One join: an edge between two different facets with parallel area vectors is removed by `join_facet`. -/
inductive Joins : Surf K → Surf K → Prop
  | refl (S : Surf K) : Joins S S
  | step {S S1 S' : Surf K} (h f g : Nat) (hh : h ∈ S.hs) (hf : S.face h = some f) (hg : S.face (S.opp h) = some g) (hne : f ≠ g)
      (hp : ParallelFacets S f g) (hj : S.joinFacet h = .ok S1) (hr : Joins S1 S') : Joins S S'

theorem cross_smul_zero {a b : V3 K} {c d : K} (hc : 0 < c) (hd : 0 < d) : cross (smul c a) (smul d b) = zero ↔ cross a b = zero := by
  have hcd : c * d ≠ 0 := (mul_pos hc hd).ne'
  have e : cross (smul c a) (smul d b) = smul (c * d) (cross a b) := by
    ext <;> simp only [cross, smul] <;> ring
  rw [e]
  constructor
  · intro h
    have hx : c * d * (cross a b).x = 0 := congrArg V3.x h
    have hy : c * d * (cross a b).y = 0 := congrArg V3.y h
    have hz : c * d * (cross a b).z = 0 := congrArg V3.z h
    ext
    · exact (mul_eq_zero.1 hx).resolve_left hcd
    · exact (mul_eq_zero.1 hy).resolve_left hcd
    · exact (mul_eq_zero.1 hz).resolve_left hcd
  · intro h
    rw [h]
    ext <;> simp [smul, zero]

variable {nrm : List (V3 K) → V3 K}

theorem joinable_spec (L : NormalLaw nrm) (V : ValidSurf S) {h : Nat} (hh : h ∈ S.hs) :
    ∃ b, Surf.joinable nrm S h = .ok b ∧
      (b = true ↔ ∃ f g, S.face h = some f ∧ S.face (S.opp h) = some g ∧ ParallelFacets S f g) := by
  unfold Surf.joinable
  by_cases hb : S.isBorderEdge h = true
  · refine ⟨false, by rw [if_pos hb], ?_⟩
    simp only [Bool.false_eq_true, false_iff]
    rintro ⟨f, g, hf, hg, _⟩
    simp [Surf.isBorderEdge, Surf.isBorder, hf, hg] at hb
  · rw [if_neg hb]
    simp only [Surf.isBorderEdge, Surf.isBorder, Bool.or_eq_true, not_or, Option.isNone_iff_eq_none] at hb
    obtain ⟨f, hf⟩ := Option.ne_none_iff_exists'.1 hb.1
    obtain ⟨g, hg⟩ := Option.ne_none_iff_exists'.1 hb.2
    obtain ⟨a, a1, a2⟩ := corners_area V (V.face_mem h hh f hf)
    obtain ⟨b, b1, b2⟩ := corners_area V (V.face_mem _ (V.opp_mem h hh) g hg)
    obtain ⟨c, c0, c1⟩ := L a
    obtain ⟨d, d0, d1⟩ := L b
    rw [hf, hg]
    dsimp only
    rw [a1, Out.ok_bind, b1, Out.ok_bind]
    refine ⟨_, rfl, ?_⟩
    rw [decide_eq_true_iff, c1, d1, cross_smul_zero c0 d0, a2, b2]
    constructor
    · intro h; exact ⟨f, g, rfl, rfl, h⟩
    · rintro ⟨_, _, ⟨rfl⟩, ⟨rfl⟩, h⟩; exact h

theorem findJoinable_spec (L : NormalLaw nrm) (V : ValidSurf S) : ∀ l : List Nat, (∀ h ∈ l, h ∈ S.hs) →
    (Surf.findJoinable nrm S l = .ok none ∧ ∀ h ∈ l, ∀ f g, S.face h = some f → S.face (S.opp h) = some g → ¬ ParallelFacets S f g) ∨
    ∃ h ∈ l, ∃ f g, Surf.findJoinable nrm S l = .ok (some h) ∧ S.face h = some f ∧ S.face (S.opp h) = some g ∧ ParallelFacets S f g
  | [], _ => Or.inl ⟨rfl, by simp⟩
  | h :: l, hl => by
    obtain ⟨b, b1, b2⟩ := joinable_spec L V (hl h List.mem_cons_self)
    unfold Surf.findJoinable
    rw [b1, Out.ok_bind]
    cases b with
    | true =>
      obtain ⟨f, g, h1, h2, h3⟩ := b2.1 rfl
      exact Or.inr ⟨h, List.mem_cons_self, f, g, rfl, h1, h2, h3⟩
    | false =>
      rw [if_neg (by simp)]
      rcases findJoinable_spec L V l fun x hx => hl x (List.mem_cons_of_mem _ hx) with ⟨h1, h2⟩ | ⟨x, hx, f, g, h1, h2⟩
      · refine Or.inl ⟨h1, fun x hx f g hf hg hp => ?_⟩
        rcases List.mem_cons.1 hx with rfl | hx
        · exact absurd (b2.2 ⟨f, g, hf, hg, hp⟩) (by simp)
        · exact h2 x hx f g hf hg hp
      · exact Or.inr ⟨x, List.mem_cons_of_mem _ hx, f, g, h1, h2⟩

/-- C59: `join_facet` on an inner edge of a valid surface works exactly when the two facets are different and each end of the edge has at least three
edges; then one edge and one facet disappear, no point moves and the surface stays valid. Otherwise it violates its
precondition or does not end. -/
theorem C59_join (V : ValidSurf S) (h f g : Nat) (hh : h ∈ S.hs) (hf : S.face h = some f) (hg : S.face (S.opp h) = some g) :
    (f ≠ g ∧ S.degreeOk h = true ∧ S.degreeOk (S.opp h) = true → ∃ S', S.joinFacet h = .ok S' ∧ ValidSurf S' ∧
      S'.fs = (S.fs.filter fun k => decide (k ≠ g)) ∧ S'.hs = (S.hs.filter fun k => decide (k ≠ h ∧ k ≠ S.opp h)) ∧ S'.vs = S.vs ∧ S'.pt = S.pt ∧
      (∀ p, Corner S' f p ↔ Corner S f p ∨ Corner S g p) ∧ (∀ k, k ≠ f → k ≠ g → ∀ p, Corner S' k p ↔ Corner S k p) ∧
      facetVector S' f = add (facetVector S f) (facetVector S g) ∧ (∀ k, k ≠ f → k ≠ g → facetVector S' k = facetVector S k)) ∧
    (¬ (f ≠ g ∧ S.degreeOk h = true ∧ S.degreeOk (S.opp h) = true) → S.joinFacet h = .ub) := by
  constructor
  · rintro ⟨hne, d1, d2⟩
    obtain ⟨S', h1, h2, h3, h4, h5, h6, h7, h8, _, h9⟩ := join_ok V hh hf hg hne d1 d2
    obtain ⟨a1, a2⟩ := join_area V hh hf hg hne h3 h6 h7 h8 h9
    have hmem : ∀ x, x ∈ S'.hs ↔ x ∈ S.hs ∧ x ≠ h ∧ x ≠ S.opp h := by
      intro x; rw [h3, List.mem_filter, decide_eq_true_iff]
    have ho := V.opp_mem h hh
    refine ⟨S', h1, h2, h4, h3, h5, h8, ?_, ?_, a1, a2⟩
    · intro p
      constructor
      · rintro ⟨x, hx, hxf, hxp⟩
        rw [h9 x hx] at hxf
        rw [h8, h6] at hxp
        split at hxf
        · rename_i hxg
          exact Or.inr ⟨x, ((hmem x).1 hx).1, hxg, hxp⟩
        · exact Or.inl ⟨x, ((hmem x).1 hx).1, hxf, hxp⟩
      · -- the corners at the ends of the edge are those of the half-edges before it
        have key : ∀ x ∈ S.hs, x ≠ h → x ≠ S.opp h → (S.face x = some f ∨ S.face x = some g) → S.pt (S.vert x) = p → Corner S' f p := by
          intro x hx e1 e2 hxf hxp
          have hx' := (hmem x).2 ⟨hx, e1, e2⟩
          refine ⟨x, hx', ?_, by rw [h8, h6]; exact hxp⟩
          rw [h9 x hx']
          rcases hxf with hxf | hxf <;> rw [hxf]
          · rw [if_neg (fun he => hne (Option.some.inj he))]
          · rw [if_pos rfl]
        have fb : S.face (S.prev (S.opp h)) = some g := by
          have := V.face_next _ (V.prev_mem _ ho)
          rw [V.next_prev _ ho, hg] at this
          exact this.symm
        have fa : S.face (S.prev h) = some f := by
          have := V.face_next _ (V.prev_mem _ hh)
          rw [V.next_prev _ hh, hf] at this
          exact this.symm
        have va : S.vert (S.prev h) = S.vert (S.opp h) := by
          rw [← V.turn _ (V.prev_mem h hh), V.next_prev h hh]
        have vb : S.vert (S.prev (S.opp h)) = S.vert h := by
          rw [← V.turn _ (V.prev_mem _ ho), V.next_prev _ ho, V.opp_opp h hh]
        have endh : S.pt (S.vert h) = p → Corner S' f p := by
          intro hp
          refine key (S.prev (S.opp h)) (V.prev_mem _ ho) ?_ ?_ (Or.inr fb) (by rw [vb]; exact hp)
          · intro he; rw [he, hf] at fb; exact hne (Option.some.inj fb)
          · intro he
            apply V.next_ne _ ho
            conv_lhs => rw [← he]
            exact V.next_prev _ ho
        have endo : S.pt (S.vert (S.opp h)) = p → Corner S' f p := by
          intro hp
          refine key (S.prev h) (V.prev_mem _ hh) ?_ ?_ (Or.inl fa) (by rw [va]; exact hp)
          · intro he
            apply V.next_ne _ hh
            conv_lhs => rw [← he]
            exact V.next_prev _ hh
          · intro he; rw [he, hg] at fa; exact hne (Option.some.inj fa).symm
        have main : ∀ x ∈ S.hs, (S.face x = some f ∨ S.face x = some g) → S.pt (S.vert x) = p → Corner S' f p := by
          intro x hx hxf hxp
          by_cases e1 : x = h
          · subst e1; exact endh hxp
          · by_cases e2 : x = S.opp h
            · subst e2; exact endo hxp
            · exact key x hx e1 e2 hxf hxp
        rintro (⟨x, hx, hxf, hxp⟩ | ⟨x, hx, hxf, hxp⟩)
        · exact main x hx (Or.inl hxf) hxp
        · exact main x hx (Or.inr hxf) hxp
    · intro k hkf hkg p
      constructor
      · rintro ⟨x, hx, hxk, hxp⟩
        rw [h9 x hx] at hxk
        rw [h8, h6] at hxp
        split at hxk
        · exact absurd (Option.some.inj hxk).symm hkf
        · exact ⟨x, ((hmem x).1 hx).1, hxk, hxp⟩
      · rintro ⟨x, hx, hxk, hxp⟩
        have hx' : x ∈ S'.hs := (hmem x).2 ⟨hx, by rintro rfl; rw [hf] at hxk; exact hkf (Option.some.inj hxk).symm,
          by rintro rfl; rw [hg] at hxk; exact hkg (Option.some.inj hxk).symm⟩
        refine ⟨x, hx', ?_, by rw [h8, h6]; exact hxp⟩
        rw [h9 x hx', if_neg, hxk]
        rw [hxk]
        intro he
        exact hkg (Option.some.inj he)
  · intro hn
    by_cases hfg : f = g
    · subst hfg
      exact join_same V hh hf hg
    · unfold Surf.joinFacet
      rw [if_pos]
      by_contra hc
      apply hn
      simp only [Bool.not_eq_true', Bool.not_eq_false, Bool.and_eq_true] at hc
      exact ⟨hfg, hc.1, hc.2⟩

theorem join_shrinks (V : ValidSurf S) {h : Nat} (hh : h ∈ S.hs) : (S.hs.filter fun k => decide (k ≠ h ∧ k ≠ S.opp h)).length < S.hs.length := by
  apply List.length_filter_lt_length_iff_exists.2
  exact ⟨h, hh, by simp⟩

/-- Induction over the run of the loop: what it returns, and that it ends. -/
theorem pruneLoop_spec (L : NormalLaw nrm) : ∀ (n : Nat) (S : Surf K), ValidSurf S → S.hs.length < n →
    (∃ S', Surf.pruneLoop nrm n S = .ok S' ∧ Joins S S' ∧ ValidSurf S' ∧
      ∀ h ∈ S'.hs, ∀ f g, S'.face h = some f → S'.face (S'.opp h) = some g → ¬ ParallelFacets S' f g) ∨
    (Surf.pruneLoop nrm n S = .ub ∧ ∃ S1 h f g, Joins S S1 ∧ ValidSurf S1 ∧ Surf.prunable nrm S1 = .ok (some h) ∧ h ∈ S1.hs ∧ S1.face h = some f ∧
      S1.face (S1.opp h) = some g ∧ ¬ (f ≠ g ∧ S1.degreeOk h = true ∧ S1.degreeOk (S1.opp h) = true))
  | 0, _, _, hn => by omega
  | n + 1, S, V, hn => by
    unfold Surf.pruneLoop Surf.prunable
    rcases findJoinable_spec L V S.hs (fun _ h => h) with ⟨h1, h2⟩ | ⟨h, hh, f, g, h1, hf, hg, hp⟩
    · rw [h1, Out.ok_bind]
      exact Or.inl ⟨S, rfl, Joins.refl S, V, h2⟩
    · rw [h1, Out.ok_bind]
      dsimp only
      by_cases hd : f ≠ g ∧ S.degreeOk h = true ∧ S.degreeOk (S.opp h) = true
      · obtain ⟨S1, j1, j2, j3, j4, _⟩ := (C59_join V h f g hh hf hg).1 hd
        rw [j1, Out.ok_bind]
        have hlt := join_shrinks V hh
        rw [← j4] at hlt
        rcases pruneLoop_spec L n S1 j2 (by omega) with ⟨S', k1, k2, k3⟩ | ⟨k1, S2, x, f', g', k2, k3⟩
        · exact Or.inl ⟨S', k1, Joins.step h f g hh hf hg hd.1 hp j1 k2, k3⟩
        · exact Or.inr ⟨k1, S2, x, f', g', Joins.step h f g hh hf hg hd.1 hp j1 k2, k3⟩
      · rw [(C59_join V h f g hh hf hg).2 hd, Out.ub_bind]
        exact Or.inr ⟨rfl, S, h, f, g, Joins.refl S, V, h1, hh, hf, hg, hd⟩

/-- C59, the part that holds: the loop of `prune` returns after finitely many joins (the bound on the rounds is never reached), each of two different
facets with parallel area vectors along a common edge, and then no such pair is left; or it comes to an edge which `join_facet` cannot
remove. It never throws. -/
theorem C59_prune_partial (L : NormalLaw nrm) (V : ValidSurf S) (n : Nat) (hn : S.hs.length < n) :
    (∃ S', Surf.pruneLoop nrm n S = .ok S' ∧ Joins S S' ∧ ValidSurf S' ∧
      ∀ h ∈ S'.hs, ∀ f g, S'.face h = some f → S'.face (S'.opp h) = some g → ¬ ParallelFacets S' f g) ∨
    (Surf.pruneLoop nrm n S = .ub ∧ ∃ S1 h f g, Joins S S1 ∧ ValidSurf S1 ∧ Surf.prunable nrm S1 = .ok (some h) ∧ h ∈ S1.hs ∧ S1.face h = some f ∧
      S1.face (S1.opp h) = some g ∧ ¬ (f ≠ g ∧ S1.degreeOk h = true ∧ S1.degreeOk (S1.opp h) = true)) :=
  pruneLoop_spec L n S V hn

/-- C59: the result does not depend on the bound: the loop ends by itself. -/
theorem C59_terminates (L : NormalLaw nrm) : ∀ (n m : Nat) (S : Surf K), ValidSurf S → S.hs.length < n → S.hs.length < m →
    Surf.pruneLoop nrm n S = Surf.pruneLoop nrm m S
  | 0, _, _, _, hn, _ => by omega
  | _, 0, _, _, _, hm => by omega
  | n + 1, m + 1, S, V, hn, hm => by
    unfold Surf.pruneLoop Surf.prunable
    rcases findJoinable_spec L V S.hs (fun _ h => h) with ⟨h1, h2⟩ | ⟨h, hh, f, g, h1, hf, hg, hp⟩
    · rw [h1, Out.ok_bind, Out.ok_bind]
    · rw [h1, Out.ok_bind, Out.ok_bind]
      dsimp only
      by_cases hd : f ≠ g ∧ S.degreeOk h = true ∧ S.degreeOk (S.opp h) = true
      · obtain ⟨S1, j1, j2, j3, j4, _⟩ := (C59_join V h f g hh hf hg).1 hd
        rw [j1, Out.ok_bind, Out.ok_bind]
        have hlt := join_shrinks V hh
        rw [← j4] at hlt
        exact C59_terminates L n m S1 j2 (by omega) (by omega)
      · rw [(C59_join V h f g hh hf hg).2 hd, Out.ub_bind, Out.ub_bind]

/-- No point moves, no facet is new, and the sum of the area vectors of all facets is the same after any number of joins. -/
theorem C59_conserves (V : ValidSurf S) (h : Joins S S') : ValidSurf S' ∧ S'.vs = S.vs ∧ S'.pt = S.pt ∧ List.Sublist S'.fs S.fs ∧
    vsum (S'.fs.map (facetVector S')) = vsum (S.fs.map (facetVector S)) := by
  induction h with
  | refl S => exact ⟨V, rfl, rfl, List.Sublist.refl _, rfl⟩
  | step h f g hh hf hg hne hp hj hr ih =>
    rename_i S S1 S'
    have hd : f ≠ g ∧ S.degreeOk h = true ∧ S.degreeOk (S.opp h) = true := by
      by_contra hc
      rw [(C59_join V h f g hh hf hg).2 hc] at hj
      cases hj
    obtain ⟨S2, j1, j2, j3, _, j5, j6, _, _, j7, j8⟩ := (C59_join V h f g hh hf hg).1 hd
    rw [hj] at j1
    cases j1
    obtain ⟨i1, i2, i3, i4, i5⟩ := ih j2
    refine ⟨i1, i2.trans j5, i3.trans j6, i4.trans (by rw [j3]; exact List.filter_sublist), i5.trans ?_⟩
    have hfm := V.face_mem h hh f hf
    have hgm := V.face_mem _ (V.opp_mem h hh) g hg
    have e1 := vsum_remove (facetVector S) (fun _ => true) g S.fs V.fnodup hgm rfl
    simp only [List.filter_true, Bool.true_and] at e1
    have e2 := vsum_remove (facetVector S) (fun x => decide (x ≠ g)) f S.fs V.fnodup hfm (by simp [hne])
    have e3 := vsum_remove (facetVector S1) (fun x => decide (x ≠ g)) f S.fs V.fnodup hfm (by simp [hne])
    rw [e1, e2, j3, e3, j7, add_assoc']
    have e4 : ((S.fs.filter fun x => decide (x ≠ g) && decide (x ≠ f)).map (facetVector S1)) =
        ((S.fs.filter fun x => decide (x ≠ g) && decide (x ≠ f)).map (facetVector S)) := by
      apply List.map_congr_left
      intro x hx
      simp only [List.mem_filter, Bool.and_eq_true, decide_eq_true_eq] at hx
      exact j8 x hx.2.2 hx.2.1
    rw [e4, ← add_assoc', add_comm' (facetVector S f), add_assoc']

/-- Every facet is plane and has an area vector different from zero. -/
def FlatFacets (S : Surf K) : Prop := ∀ f ∈ S.fs, facetVector S f ≠ zero ∧ PlanarFacet S f

/-- Neighbours with parallel area vectors have the same orientation: no facet is folded over its neighbour. -/
def NoFold (S : Surf K) : Prop := ∀ f g, ShareEdge S f g → ParallelFacets S f g → 0 < dot (facetVector S f) (facetVector S g)

theorem dot_self_pos {a : V3 K} (h : a ≠ zero) : 0 < dot a a := by
  have h0 : 0 ≤ dot a a := by unfold dot; nlinarith [mul_self_nonneg a.x, mul_self_nonneg a.y, mul_self_nonneg a.z]
  refine lt_of_le_of_ne h0 fun he => h ?_
  have hs : a.x * a.x + a.y * a.y + a.z * a.z = 0 := he.symm
  have hx : a.x * a.x = 0 := by nlinarith [mul_self_nonneg a.x, mul_self_nonneg a.y, mul_self_nonneg a.z]
  have hy : a.y * a.y = 0 := by nlinarith [mul_self_nonneg a.x, mul_self_nonneg a.y, mul_self_nonneg a.z]
  have hz : a.z * a.z = 0 := by nlinarith [mul_self_nonneg a.x, mul_self_nonneg a.y, mul_self_nonneg a.z]
  ext
  · exact mul_self_eq_zero.1 hx
  · exact mul_self_eq_zero.1 hy
  · exact mul_self_eq_zero.1 hz

/-- Parallel facets with a common edge, the same orientation: one is a positive multiple of the other. -/
theorem same_direction (hF : FlatFacets S) (hN : NoFold S) {f g : Nat} (hf : f ∈ S.fs) (hs : ShareEdge S f g) (hp : ParallelFacets S f g) :
    ∃ c, 0 < c ∧ facetVector S g = smul c (facetVector S f) := by
  obtain ⟨c, hc⟩ := smul_of_cross hp (hF f hf).1
  refine ⟨c, ?_, hc⟩
  have h1 := hN f g hs hp
  have h2 := dot_self_pos (hF f hf).1
  rw [hc] at h1
  have h3 : dot (facetVector S f) (smul c (facetVector S f)) = c * dot (facetVector S f) (facetVector S f) := by
    simp only [dot, smul]; ring
  rw [h3] at h1
  by_contra hn
  nlinarith [not_lt.1 hn]

/-- C59, for surfaces without degenerate or folded facets: the facets that `prune` joins are coplanar and have the same orientation, at every step of
the run, and the joined facets are plane again. -/
theorem C59_coplanar (V : ValidSurf S) (hF : FlatFacets S) (hN : NoFold S) (h : Joins S S') : FlatFacets S' ∧ NoFold S' ∧
    ∀ x f g, x ∈ S'.hs → S'.face x = some f → S'.face (S'.opp x) = some g → ParallelFacets S' f g →
      0 < dot (facetVector S' f) (facetVector S' g) ∧
      ∀ p q, (Corner S' f p ∨ Corner S' g p) → (Corner S' f q ∨ Corner S' g q) → dot (facetVector S' f) (vec p q) = 0 := by
  -- the common plane of two parallel neighbours
  have plane : ∀ (T : Surf K), ValidSurf T → FlatFacets T → NoFold T → ∀ x f g, x ∈ T.hs → T.face x = some f → T.face (T.opp x) = some g →
      ParallelFacets T f g → ∀ p q, (Corner T f p ∨ Corner T g p) → (Corner T f q ∨ Corner T g q) → dot (facetVector T f) (vec p q) = 0 := by
    intro T VT FT NT x f g hx hf hg hp
    have hfm := VT.face_mem x hx f hf
    have hgm := VT.face_mem _ (VT.opp_mem x hx) g hg
    obtain ⟨c, c0, hc⟩ := same_direction FT NT hfm ⟨x, hx, hf, hg⟩ hp
    have hinv : facetVector T f = smul c⁻¹ (facetVector T g) := by
      rw [hc]
      ext <;> simp only [smul] <;> field_simp
    have scale : ∀ p q, dot (facetVector T g) (vec p q) = 0 → dot (facetVector T f) (vec p q) = 0 := by
      intro p q h
      rw [hinv]
      have : dot (smul c⁻¹ (facetVector T g)) (vec p q) = c⁻¹ * dot (facetVector T g) (vec p q) := by simp only [dot, smul]; ring
      rw [this, h, mul_zero]
    -- the vertex of x is a corner of both
    have cf : Corner T f (T.pt (T.vert x)) := ⟨x, hx, hf, rfl⟩
    have cg : Corner T g (T.pt (T.vert x)) := by
      have ho := VT.opp_mem x hx
      refine ⟨T.prev (T.opp x), VT.prev_mem _ ho, ?_, ?_⟩
      · rw [← VT.face_next _ (VT.prev_mem _ ho), VT.next_prev _ ho, hg]
      · rw [← VT.turn _ (VT.prev_mem _ ho), VT.next_prev _ ho, VT.opp_opp x hx]
    have toO : ∀ p, (Corner T f p ∨ Corner T g p) → dot (facetVector T f) (vec (T.pt (T.vert x)) p) = 0 := by
      rintro p (h | h)
      · exact (FT f hfm).2 _ _ cf h
      · exact scale _ _ ((FT g hgm).2 _ _ cg h)
    intro p q hp hq
    have e1 := toO p hp
    have e2 := toO q hq
    have : dot (facetVector T f) (vec p q) = dot (facetVector T f) (vec (T.pt (T.vert x)) q) - dot (facetVector T f) (vec (T.pt (T.vert x)) p) := by
      simp only [dot, vec]; ring
    rw [this, e1, e2, sub_zero]
  induction h with
  | refl S =>
    exact ⟨hF, hN, fun x f g hx hf hg hp => ⟨hN f g ⟨x, hx, hf, hg⟩ hp, plane S V hF hN x f g hx hf hg hp⟩⟩
  | step h f g hh hf hg hne hp hj hr ih =>
    rename_i S S1 S'
    have hd : f ≠ g ∧ S.degreeOk h = true ∧ S.degreeOk (S.opp h) = true := by
      by_contra hc
      rw [(C59_join V h f g hh hf hg).2 hc] at hj
      cases hj
    obtain ⟨S2, j1, j2, j3, j4, j5, j6, jc, jk, j7, j8⟩ := (C59_join V h f g hh hf hg).1 hd
    rw [hj] at j1
    cases j1
    have hfm := V.face_mem h hh f hf
    obtain ⟨c, c0, hc⟩ := same_direction hF hN hfm ⟨h, hh, hf, hg⟩ hp
    have hsum : facetVector S1 f = smul (1 + c) (facetVector S f) := by
      rw [j7, hc]
      ext <;> simp only [add, smul] <;> ring
    have hpos : (0 : K) < 1 + c := by linarith
    -- faces of the new surface
    have hold : ∀ x, x ∈ S1.hs → ∀ k, S1.face x = some k → x ∈ S.hs ∧ (S.face x = some k ∧ k ≠ g ∨ k = f ∧ S.face x = some g) := by
      obtain ⟨S3, q1, _, q3, _, _, _, _, _, _, q9⟩ := join_ok V hh hf hg hd.1 hd.2.1 hd.2.2
      rw [hj] at q1
      cases q1
      intro x hx k hk
      have hx' : x ∈ S.hs := by rw [q3] at hx; exact List.mem_of_mem_filter hx
      rw [q9 x hx] at hk
      split at hk
      · rename_i hxg
        exact ⟨hx', Or.inr ⟨(Option.some.inj hk).symm, hxg⟩⟩
      · rename_i hxg
        exact ⟨hx', Or.inl ⟨hk, by rintro rfl; exact hxg hk⟩⟩
    have hopp : S1.opp = S.opp := by
      obtain ⟨S3, q1, _, _, _, _, _, q7, _⟩ := join_ok V hh hf hg hd.1 hd.2.1 hd.2.2
      rw [hj] at q1
      cases q1
      exact q7
    -- every vector of the new surface is a positive multiple of the vectors of the old facets it is made of
    have scaled : ∀ k k', (k' = k ∧ k ≠ g ∨ k = f ∧ k' = g) → ∃ d, 0 < d ∧ facetVector S1 k = smul d (facetVector S k') := by
      rintro k k' (⟨rfl, hkg⟩ | ⟨rfl, rfl⟩)
      · by_cases hkf : k' = f
        · subst hkf; exact ⟨1 + c, hpos, hsum⟩
        · refine ⟨1, one_pos, ?_⟩
          rw [j8 k' hkf hkg]
          ext <;> simp [smul]
      · refine ⟨(1 + c) / c, div_pos hpos c0, ?_⟩
        rw [hsum, hc]
        ext <;> simp only [smul] <;> field_simp
    have F1 : FlatFacets S1 := by
      intro k hk
      rw [j3, List.mem_filter, decide_eq_true_iff] at hk
      by_cases hkf : k = f
      · subst hkf
        constructor
        · rw [hsum]
          intro he
          apply (hF k hfm).1
          have hx : (1 + c) * (facetVector S k).x = 0 := congrArg V3.x he
          have hy : (1 + c) * (facetVector S k).y = 0 := congrArg V3.y he
          have hz : (1 + c) * (facetVector S k).z = 0 := congrArg V3.z he
          ext
          · exact (mul_eq_zero.1 hx).resolve_left hpos.ne'
          · exact (mul_eq_zero.1 hy).resolve_left hpos.ne'
          · exact (mul_eq_zero.1 hz).resolve_left hpos.ne'
        · intro p q h1 h2
          rw [jc] at h1 h2
          have := plane S V hF hN h k g hh hf hg hp p q h1 h2
          rw [hsum]
          have e : dot (smul (1 + c) (facetVector S k)) (vec p q) = (1 + c) * dot (facetVector S k) (vec p q) := by simp only [dot, smul]; ring
          rw [e, this, mul_zero]
      · rw [j8 k hkf hk.2]
        refine ⟨(hF k hk.1).1, fun p q h1 h2 => ?_⟩
        rw [jk k hkf hk.2] at h1 h2
        rw [j8 k hkf hk.2]
        exact (hF k hk.1).2 p q h1 h2
    have N1 : NoFold S1 := by
      rintro k m ⟨x, hx, hxk, hxm⟩ hkm
      have ho := j2.opp_mem x hx
      obtain ⟨hxS, hk'⟩ := hold x hx k hxk
      obtain ⟨_, hm'⟩ := hold _ ho m hxm
      rw [hopp] at hm'
      -- the old facets on both sides of x
      have ek : ∃ k', S.face x = some k' ∧ (k' = k ∧ k ≠ g ∨ k = f ∧ k' = g) := by
        rcases hk' with ⟨h1, h2⟩ | ⟨h1, h2⟩
        · exact ⟨k, h1, Or.inl ⟨rfl, h2⟩⟩
        · exact ⟨g, h2, Or.inr ⟨h1, rfl⟩⟩
      have em : ∃ m', S.face (S.opp x) = some m' ∧ (m' = m ∧ m ≠ g ∨ m = f ∧ m' = g) := by
        rcases hm' with ⟨h1, h2⟩ | ⟨h1, h2⟩
        · exact ⟨m, h1, Or.inl ⟨rfl, h2⟩⟩
        · exact ⟨g, h2, Or.inr ⟨h1, rfl⟩⟩
      obtain ⟨k', hk1, hk2⟩ := ek
      obtain ⟨m', hm1, hm2⟩ := em
      obtain ⟨d1, d10, e1⟩ := scaled k k' hk2
      obtain ⟨d2, d20, e2⟩ := scaled m m' hm2
      have hpar : ParallelFacets S k' m' := by
        unfold ParallelFacets at hkm ⊢
        rw [e1, e2, cross_smul_zero d10 d20] at hkm
        exact hkm
      have := hN k' m' ⟨x, hxS, hk1, hm1⟩ hpar
      rw [e1, e2]
      have e : dot (smul d1 (facetVector S k')) (smul d2 (facetVector S m')) = d1 * d2 * dot (facetVector S k') (facetVector S m') := by
        simp only [dot, smul]; ring
      rw [e]
      exact mul_pos (mul_pos d10 d20) this
    exact ih j2 F1 N1

/-- C58: after `prune` the facets are numbered 0 to n-1 in their order, whatever the stitching does to a surface with distinct facets. -/
theorem C58_prune (stitch : Surf K → Surf K) (hst : ∀ T, ValidSurf T → (stitch T).fs.Nodup) (L : NormalLaw nrm) (V : ValidSurf S)
    (h : S.prune nrm stitch = .ok S') : S'.fs.map S'.fid = List.range S'.fs.length ∧ ∀ i f, S'.fs[i]? = some f → S'.fid f = i := by
  unfold Surf.prune at h
  obtain ⟨T, h1, h2⟩ := Out.bind_eq_ok.1 h
  cases h2
  rcases C59_prune_partial L V (S.hs.length + 1) (by omega) with ⟨T', k1, _, k3, _⟩ | ⟨k1, _⟩
  · rw [h1] at k1
    cases k1
    exact ⟨(C58_ids (hst T k3)).2.1, (C58_ids (hst T k3)).1⟩
  · rw [h1] at k1
    cases k1

end

/-- The area vector itself is a lawful normal. -/
theorem area_normal : NormalLaw (K := ℚ) vectorArea2 := fun l => ⟨1, one_pos, by ext <;> simp [smul]⟩

/-- C59, as it is stated, for surfaces whose facets are plane: pruning ends with a surface without joinable pair, and it joins only pairs of the same
orientation. -/
def C59_full : Prop := ∀ (nrm : List (V3 ℚ) → V3 ℚ), NormalLaw nrm → ∀ S : Surf ℚ, ValidSurf S → FlatFacets S →
  ∃ S', Surf.pruneLoop nrm (S.hs.length + 1) S = .ok S' ∧
    (∀ h ∈ S'.hs, ∀ f g, S'.face h = some f → S'.face (S'.opp h) = some g → ¬ ParallelFacets S' f g) ∧
    (∀ h ∈ S.hs, ∀ f g, S.face h = some f → S.face (S.opp h) = some g → f ≠ g → dot (facetVector S f) (facetVector S g) < 0 → f ∈ S'.fs ∧ g ∈ S'.fs)

/-- A test for plane facets, for the examples. -/
def checkFlat (S : Surf ℚ) : Bool := S.fs.all fun f => decide (facetVector S f ≠ zero) &&
  S.hs.all fun x => S.hs.all fun y => decide (S.face x = some f → S.face y = some f →
    dot (facetVector S f) (vec (S.pt (S.vert x)) (S.pt (S.vert y))) = 0)

theorem checkFlat_flat {S : Surf ℚ} (h : checkFlat S = true) : FlatFacets S := by
  unfold checkFlat at h
  simp only [List.all_eq_true, Bool.and_eq_true, decide_eq_true_eq] at h
  intro f hf
  refine ⟨(h f hf).1, ?_⟩
  rintro p q ⟨x, hx, hxf, rfl⟩ ⟨y, hy, hyf, rfl⟩
  exact (h f hf).2 x hx y hy hxf hyf

/-- C59 is false: in the closed surface `hut` the base is cut in three triangles around an inner point. When two of them have been joined the point has
two edges left, and `join_facet` may not be called for the next. -/
theorem C59_refuted : ¬ C59_full := by
  intro h
  obtain ⟨S', h1, _⟩ := h vectorArea2 area_normal hut hut_valid (checkFlat_flat (by decide +kernel))
  have h2 : (match Surf.pruneLoop vectorArea2 (hut.hs.length + 1) hut with | .ub => true | _ => false) = true := by decide +kernel
  rw [h1] at h2
  cases h2

/-- C59 is false also without inner points: the facets around a courtyard are joined to one ring, and the last edge has the same facet on both sides;
`join_facet` does not end for it. -/
theorem C59_ring_refuted : FlatFacets ring ∧ NoFold ring ∧ (∀ h ∈ ring.hs, ring.degreeOk h = true) ∧
    Surf.pruneLoop vectorArea2 (ring.hs.length + 1) ring = .ub := by
  refine ⟨checkFlat_flat (by decide +kernel), ?_, by decide +kernel, ?_⟩
  · rintro f g ⟨h, hh, hf, hg⟩ hp
    have : ∀ h ∈ ring.hs, ∀ f ∈ (ring.face h).toList, ∀ g ∈ (ring.face (ring.opp h)).toList, 0 < dot (facetVector ring f) (facetVector ring g) := by
      decide +kernel
    exact this h hh f (by rw [hf]; simp) g (by rw [hg]; simp)
  · have h2 : (match Surf.pruneLoop vectorArea2 (ring.hs.length + 1) ring with | .ub => true | _ => false) = true := by decide +kernel
    revert h2
    cases Surf.pruneLoop vectorArea2 (ring.hs.length + 1) ring <;> simp

/-- C59 is false in orientation: a triangle folded over its neighbour is joined with it. -/
theorem C59_fold_refuted : FlatFacets fold ∧ dot (facetVector fold 0) (facetVector fold 1) < 0 ∧
    ∃ S', Surf.pruneLoop vectorArea2 (fold.hs.length + 1) fold = .ok S' ∧ S'.fs = [0] := by
  refine ⟨checkFlat_flat (by decide +kernel), by decide +kernel, ?_⟩
  have h2 : (match Surf.pruneLoop vectorArea2 (fold.hs.length + 1) fold with | .ok S' => decide (S'.fs = [0]) | _ => false) = true := by decide +kernel
  revert h2
  cases hc : Surf.pruneLoop vectorArea2 (fold.hs.length + 1) fold with
  | ok S' => intro h2; exact ⟨S', rfl, by simpa using h2⟩
  | thrown e => simp
  | ub => simp

/-- The hypotheses of the positive theorems are met, and pruning does what it should: the two triangles of the panel become one square. -/
example : FlatFacets panel ∧ NoFold panel ∧ ∃ S', Surf.pruneLoop vectorArea2 (panel.hs.length + 1) panel = .ok S' ∧ S'.fs = [0] ∧ S'.hs.length = 8 ∧
    facetVector S' 0 = ⟨0, 0, 8⟩ := by
  refine ⟨checkFlat_flat (by decide +kernel), ?_, ?_⟩
  · rintro f g ⟨h, hh, hf, hg⟩ hp
    have : ∀ h ∈ panel.hs, ∀ f ∈ (panel.face h).toList, ∀ g ∈ (panel.face (panel.opp h)).toList, 0 < dot (facetVector panel f) (facetVector panel g) := by
      decide +kernel
    exact this h hh f (by rw [hf]; simp) g (by rw [hg]; simp)
  · have h2 : (match Surf.pruneLoop vectorArea2 (panel.hs.length + 1) panel with
      | .ok S' => decide (S'.fs = [0] ∧ S'.hs.length = 8 ∧ facetVector S' 0 = ⟨0, 0, 8⟩) | _ => false) = true := by decide +kernel
    revert h2
    cases hc : Surf.pruneLoop vectorArea2 (panel.hs.length + 1) panel with
    | ok S' => intro h2; exact ⟨S', rfl, by simpa using h2⟩
    | thrown e => simp
    | ub => simp

/-- A tetrahedron is left as it is. -/
example : Surf.prunable vectorArea2 tetra = .ok none := by decide +kernel

example : tetra.adjacencyMatrix = .ok (List.replicate 16 true) := by decide +kernel
example : ring.adjacencyMatrix = .ok (List.replicate 9 true) := by decide +kernel
example : tetra.setIds.fs.map tetra.setIds.fid = [0, 1, 2, 3] := by decide +kernel

end City.Props
