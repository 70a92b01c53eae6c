import Verif.Props.Edges
/-!
Property C74: exactly which edges `combinable` and `pruning_halfedges` list. No edge between coplanar facets is missed; the others that are listed are those
where the facet goes straight on at the corner after the edge, or the neighbour goes straight on at the corner after it.
-/
set_option linter.unusedSectionVars false
namespace City.Props
open City City.Spec V3

section
variable {K : Type} [Field K] [LinearOrder K] [IsStrictOrderedRing K] {S : Surf K}

/-- The facet of `h` goes straight on at the end of the edge after `h`. -/
def StraightAfter (S : Surf K) (h : Nat) : Prop :=
  cross (vec (S.pt (S.vert h)) (S.pt (S.vert (S.next h)))) (vec (S.pt (S.vert (S.next h))) (S.pt (S.vert (S.next (S.next h))))) = zero

/-- The facet of `h` goes straight on from `h` to the edge after it. -/
def StraightAt (S : Surf K) (h : Nat) : Prop :=
  cross (vec (S.pt (S.vert (S.opp h))) (S.pt (S.vert h))) (vec (S.pt (S.vert h)) (S.pt (S.vert (S.next h)))) = zero

/-- No edge has both ends at one point. -/
def LongEdges (S : Surf K) : Prop := ∀ h ∈ S.hs, S.pt (S.vert h) ≠ S.pt (S.vert (S.opp h))

/-- The edge `h` is between two facets that are not coplanar, but the three corners looked at on one of its sides are on one line: those after `h` in its facet,
or the first three of the neighbour from the end of `h` on. -/
def Mistaken (S : Surf K) (h : Nat) : Prop :=
  S.face h ≠ none ∧ S.face (S.opp h) ≠ none ∧ ¬ Separates S h ∧ (StraightAfter S h ∨ StraightAt S (S.opp h))

theorem cross_zero_right {a b : V3 K} (h : cross a b = zero) (ha : a ≠ zero) : ∃ c, b = smul c a := by
  have hx := congrArg V3.x h
  have hy := congrArg V3.y h
  have hz := congrArg V3.z h
  simp only [cross, zero] at hx hy hz
  by_cases h1 : a.x = 0
  · by_cases h2 : a.y = 0
    · by_cases h3 : a.z = 0
      · exact absurd (by ext <;> simp [zero, h1, h2, h3]) ha
      · refine ⟨b.z / a.z, ?_⟩
        ext <;> simp only [smul] <;> field_simp <;> linarith
    · refine ⟨b.y / a.y, ?_⟩
      ext <;> simp only [smul] <;> field_simp <;> linarith
  · refine ⟨b.x / a.x, ?_⟩
    ext <;> simp only [smul] <;> field_simp <;> linarith

/-- What the test of `combinable` decides on plane facets. -/
theorem combine_exact (V : ValidSurf S) (hF : ∀ f ∈ S.fs, CoplanarFacets S f f) (hL : LongEdges S) {h f g : Nat} (hh : h ∈ S.hs) (hf : S.face h = some f)
    (hg : S.face (S.opp h) = some g) :
    determinant (vec (S.pt (S.vert h)) (S.pt (S.vert (S.next h)))) (vec (S.pt (S.vert h)) (S.pt (S.vert (S.next (S.next h)))))
      (vec (S.pt (S.vert h)) (S.pt (S.vert (S.next (S.opp h))))) = 0 ↔ CoplanarFacets S f g ∨ StraightAfter S h ∨ StraightAt S (S.opp h) := by
  have ho := V.opp_mem h hh
  have hp := V.prev_mem _ ho
  have hn := V.next_mem h hh
  have cA : Corner S f (S.pt (S.vert h)) := ⟨h, hh, hf, rfl⟩
  have cB : Corner S f (S.pt (S.vert (S.next h))) := ⟨_, hn, by rw [V.face_next h hh, hf], rfl⟩
  have cC : Corner S f (S.pt (S.vert (S.next (S.next h)))) := ⟨_, V.next_mem _ hn, by rw [V.face_next _ hn, V.face_next h hh, hf], rfl⟩
  have cE : Corner S f (S.pt (S.vert (S.opp h))) := by
    have h1 := V.prev_mem h hh
    refine ⟨S.prev h, h1, by rw [← V.face_next _ h1, V.next_prev h hh, hf], ?_⟩
    rw [← V.turn _ h1, V.next_prev h hh]
  have gE : Corner S g (S.pt (S.vert (S.opp h))) := ⟨_, ho, hg, rfl⟩
  have gD : Corner S g (S.pt (S.vert (S.next (S.opp h)))) := ⟨_, V.next_mem _ ho, by rw [V.face_next _ ho, hg], rfl⟩
  have pA : S.vert (S.prev (S.opp h)) = S.vert h := by rw [← V.turn _ hp, V.next_prev _ ho, V.opp_opp h hh]
  have gA : Corner S g (S.pt (S.vert h)) := ⟨_, hp, by rw [← V.face_next _ hp, V.next_prev _ ho, hg], by rw [pA]⟩
  have hne := hL h hh
  unfold StraightAfter StraightAt
  rw [V.opp_opp h hh]
  generalize S.pt (S.vert h) = A at *
  generalize S.pt (S.vert (S.next h)) = B at *
  generalize S.pt (S.vert (S.next (S.next h))) = C at *
  generalize S.pt (S.vert (S.next (S.opp h))) = D at *
  generalize S.pt (S.vert (S.opp h)) = E at *
  obtain ⟨N, n0, n1⟩ := hF f (V.face_mem h hh f hf)
  obtain ⟨N', n0', n1'⟩ := hF g (V.face_mem _ ho g hg)
  constructor
  · intro hd
    by_cases t1 : cross (vec A B) (vec B C) = zero
    · exact Or.inr (Or.inl t1)
    by_cases t2 : cross (vec A E) (vec E D) = zero
    · exact Or.inr (Or.inr t2)
    left
    obtain ⟨c, hc⟩ := normal_multiple t1 (n1 _ _ (Or.inl cA) (Or.inl cB)) (n1 _ _ (Or.inl cB) (Or.inl cC))
    have c0 : c ≠ 0 := smul_ne (a := cross (vec A B) (vec B C)) (by rw [← hc]; exact n0)
    have hND : dot N (vec A D) = 0 := by
      rw [hc, dot_smul_zero c0]
      rw [← hd]
      simp only [dot, cross, vec, determinant]; ring
    have hNE : dot N (vec A E) = 0 := n1 _ _ (Or.inl cA) (Or.inl cE)
    have hNED : dot N (vec E D) = 0 := by
      have : dot N (vec E D) = dot N (vec A D) - dot N (vec A E) := by simp only [dot, vec]; ring
      rw [this, hND, hNE, sub_zero]
    obtain ⟨d, hd1⟩ := normal_multiple t2 hNE hNED
    obtain ⟨d', hd2⟩ := normal_multiple t2 (n1' _ _ (Or.inl gA) (Or.inl gE)) (n1' _ _ (Or.inl gE) (Or.inl gD))
    have d0 : d ≠ 0 := smul_ne (a := cross (vec A E) (vec E D)) (by rw [← hd1]; exact n0)
    have d0' : d' ≠ 0 := smul_ne (a := cross (vec A E) (vec E D)) (by rw [← hd2]; exact n0')
    have key : ∀ p, (Corner S f p ∨ Corner S g p) → dot N (vec A p) = 0 := by
      rintro p (hp | hp)
      · exact n1 _ _ (Or.inl cA) (Or.inl hp)
      · have := n1' _ _ (Or.inl gA) (Or.inl hp)
        rw [hd2, dot_smul_zero d0'] at this
        rw [hd1, dot_smul_zero d0]
        exact this
    refine ⟨N, n0, fun p q hp hq => ?_⟩
    have : dot N (vec p q) = dot N (vec A q) - dot N (vec A p) := by simp only [dot, vec]; ring
    rw [this, key p hp, key q hq, sub_zero]
  · rintro (⟨N, n0, n1⟩ | t1 | t2)
    · exact det_of_normal n0 (n1 _ _ (Or.inl cA) (Or.inl cB)) (n1 _ _ (Or.inl cA) (Or.inl cC)) (n1 _ _ (Or.inl cA) (Or.inr gD))
    · have : determinant (vec A B) (vec A C) (vec A D) = dot (cross (vec A B) (vec B C)) (vec A D) := by
        simp only [dot, cross, vec, determinant]; ring
      rw [this, t1]
      simp [dot, zero]
    · have hAE : vec A E ≠ zero := by
        intro e
        refine hne ?_
        have hx := congrArg V3.x e
        have hy := congrArg V3.y e
        have hz := congrArg V3.z e
        simp only [vec, zero] at hx hy hz
        ext <;> linarith
      obtain ⟨c, hc⟩ := cross_zero_right t2 hAE
      refine det_of_normal n0 (n1 _ _ (Or.inl cA) (Or.inl cB)) (n1 _ _ (Or.inl cA) (Or.inl cC)) ?_
      have e1 : dot N (vec A D) = dot N (vec A E) + dot N (vec E D) := by simp only [dot, vec]; ring
      have e2 : dot N (vec E D) = c * dot N (vec A E) := by rw [hc]; simp only [dot, smul]; ring
      rw [e1, e2, n1 _ _ (Or.inl cA) (Or.inl cE)]
      ring

/-- C74: on every valid surface of plane facets without edges of length zero `combinable` lists, each once, the half-edges opposite to the edges across which the
neighbour is coplanar, and those of the mistaken edges, and no others. -/
theorem C74_combinable_exact (V : ValidSurf S) (hF : ∀ f ∈ S.fs, CoplanarFacets S f f) (hL : LongEdges S) (f : Nat) (hf : f ∈ S.fs) :
    ∃ l, S.combinable f = .ok l ∧ l.Nodup ∧ ∀ k, k ∈ l ↔ ∃ h ∈ S.hs, S.face h = some f ∧ k = S.opp h ∧ (Separates S h ∨ Mistaken S h) := by
  obtain ⟨l, h1, h2, h3, _⟩ := V.around hf
  refine ⟨_, by unfold Surf.combinable; rw [h1, Out.ok_bind], ?_, ?_⟩
  · refine (List.nodup_map_iff_inj_on (h2.filter _)).2 fun a ha b hb hab => ?_
    have ha' := ((h3 a).1 (List.mem_filter.1 ha).1).1
    have hb' := ((h3 b).1 (List.mem_filter.1 hb).1).1
    rw [← V.opp_opp a ha', hab, V.opp_opp b hb']
  · intro k
    rw [List.mem_map]
    constructor
    · rintro ⟨h, hm, rfl⟩
      rw [List.mem_filter, Bool.and_eq_true, Bool.not_eq_true', decide_eq_true_eq] at hm
      obtain ⟨hl, hb, hd⟩ := hm
      obtain ⟨hh, hhf⟩ := (h3 h).1 hl
      rw [← Bool.not_eq_true, borderEdge_iff, not_or] at hb
      obtain ⟨g, hg⟩ := Option.ne_none_iff_exists'.1 hb.2
      refine ⟨h, hh, hhf, rfl, ?_⟩
      rcases (combine_exact V hF hL hh hhf hg).1 hd with hc | hs
      · exact Or.inl ⟨f, g, hhf, hg, hc⟩
      · by_cases hsep : Separates S h
        · exact Or.inl hsep
        · exact Or.inr ⟨hb.1, hb.2, hsep, hs⟩
    · rintro ⟨h, hh, hhf, rfl, hc⟩
      have hg : ∃ g, S.face (S.opp h) = some g := by
        rcases hc with ⟨f', g, -, hg, -⟩ | ⟨-, hg, -⟩
        · exact ⟨g, hg⟩
        · exact Option.ne_none_iff_exists'.1 hg
      obtain ⟨g, hg⟩ := hg
      refine ⟨h, ?_, rfl⟩
      rw [List.mem_filter, Bool.and_eq_true, Bool.not_eq_true', decide_eq_true_eq, ← Bool.not_eq_true, borderEdge_iff, not_or]
      refine ⟨(h3 h).2 ⟨hh, hhf⟩, ⟨by rw [hhf]; simp, by rw [hg]; simp⟩, (combine_exact V hF hL hh hhf hg).2 ?_⟩
      rcases hc with ⟨f', g', hf', hg', hc⟩ | ⟨-, -, -, hs⟩
      · rw [hhf] at hf'
        rw [hg] at hg'
        cases hf'
        cases hg'
        exact Or.inl hc
      · exact Or.inr hs

theorem pruningLoop_exact (V : ValidSurf S) (hF : ∀ f ∈ S.fs, CoplanarFacets S f f) (hL : LongEdges S) : ∀ (fs acc : List Nat), (∀ f ∈ fs, f ∈ S.fs) →
    acc.Pairwise (fun a b => ¬ SameEnds S a b) → (∀ k ∈ acc, k ∈ S.hs ∧ (Separates S k ∨ Mistaken S (S.opp k))) →
    ∃ l, S.pruningLoop fs acc = .ok l ∧ l.Pairwise (fun a b => ¬ SameEnds S a b) ∧ (∀ k ∈ l, k ∈ S.hs ∧ (Separates S k ∨ Mistaken S (S.opp k))) ∧ (∀ k ∈ acc, k ∈ l) ∧
      ∀ h ∈ S.hs, (Separates S h ∨ Mistaken S h) → (∃ f ∈ fs, S.face h = some f) → ∃ k ∈ l, SameEnds S k h
  | [], acc, _, hp, ha => ⟨acc, rfl, hp, ha, fun _ h => h, by simp⟩
  | f :: fs, acc, hfs, hp, ha => by
    obtain ⟨b, b1, _, b2⟩ := C74_combinable_exact V hF hL f (hfs f List.mem_cons_self)
    obtain ⟨c1, c2, c3, c4⟩ := addEdges_spec (S := S) b acc hp
    obtain ⟨l, d1, d2, d3, d4, d5⟩ := pruningLoop_exact V hF hL fs (S.addEdges acc b) (fun x hx => hfs x (List.mem_cons_of_mem _ hx)) c1 (by
      intro k hk
      rcases c2 k hk with h | h
      · exact ha k h
      · obtain ⟨x, hx, _, rfl, hs⟩ := (b2 k).1 h
        refine ⟨V.opp_mem x hx, ?_⟩
        rw [V.opp_opp x hx]
        exact hs.imp (separates_opp V hx) _root_.id)
    refine ⟨l, by unfold Surf.pruningLoop; rw [b1, Out.ok_bind, d1], d2, d3, fun k hk => d4 k (c3 k hk), ?_⟩
    rintro h hh hs ⟨f', hf', hff⟩
    rcases List.mem_cons.1 hf' with rfl | hf'
    · obtain ⟨k, hk, hse⟩ := c4 (S.opp h) ((b2 _).2 ⟨h, hh, hff, rfl, hs⟩)
      refine ⟨k, d4 k hk, ?_⟩
      rcases hse with ⟨e1, e2⟩ | ⟨e1, e2⟩
      · exact Or.inr ⟨by rw [e2, V.opp_opp h hh], e1⟩
      · exact Or.inl ⟨by rw [e2, V.opp_opp h hh], e1⟩
    · exact d5 h hh hs ⟨f', hf', hff⟩

/-- C74: `pruning_halfedges` lists, by ends, the edges between coplanar facets and the mistaken ones, no two with the same ends, and no others; in particular no edge
between coplanar facets is missed. -/
theorem C74_pruning_exact (V : ValidSurf S) (hF : ∀ f ∈ S.fs, CoplanarFacets S f f) (hL : LongEdges S) :
    ∃ l, S.pruningHalfedges = .ok l ∧ l.Pairwise (fun a b => ¬ SameEnds S a b) ∧ (∀ k ∈ l, k ∈ S.hs ∧ (Separates S k ∨ Mistaken S (S.opp k))) ∧
      ∀ h ∈ S.hs, Separates S h ∨ Mistaken S h → ∃ k ∈ l, SameEnds S k h := by
  obtain ⟨l, d1, d2, d3, _, d5⟩ := pruningLoop_exact V hF hL S.fs [] (fun f h => h) .nil (by simp)
  refine ⟨l, d1, d2, d3, fun h hh hs => d5 h hh hs ?_⟩
  have : S.face h ≠ none := by
    rcases hs with ⟨f, g, hf, _⟩ | hs
    · rw [hf]; simp
    · exact hs.1
  obtain ⟨f, hf⟩ := Option.ne_none_iff_exists'.1 this
  exact ⟨f, V.face_mem h hh f hf, hf⟩

/-- C74: `combinable` is right for all the facets if and only if no edge is mistaken. -/
theorem C74_exact (V : ValidSurf S) (hF : ∀ f ∈ S.fs, CoplanarFacets S f f) (hL : LongEdges S) :
    (∀ f ∈ S.fs, ∃ l, S.combinable f = .ok l ∧ ∀ k, k ∈ l ↔ ∃ h ∈ S.hs, S.face h = some f ∧ k = S.opp h ∧ Separates S h) ↔
      ∀ h ∈ S.hs, ¬ Mistaken S h := by
  constructor
  · intro hall h hh hm
    obtain ⟨f, hf⟩ := Option.ne_none_iff_exists'.1 hm.1
    obtain ⟨l, l1, l2⟩ := hall f (V.face_mem h hh f hf)
    obtain ⟨l', m1, -, m2⟩ := C74_combinable_exact V hF hL f (V.face_mem h hh f hf)
    rw [l1] at m1
    cases m1
    obtain ⟨x, hx, -, hxo, hs⟩ := (l2 _).1 ((m2 (S.opp h)).2 ⟨h, hh, hf, rfl, Or.inr hm⟩)
    have : x = h := by rw [← V.opp_opp x hx, ← hxo, V.opp_opp h hh]
    exact hm.2.2.1 (this ▸ hs)
  · intro hno f hf
    obtain ⟨l, l1, -, l2⟩ := C74_combinable_exact V hF hL f hf
    refine ⟨l, l1, fun k => (l2 k).trans ⟨?_, ?_⟩⟩
    · rintro ⟨h, hh, a, b, hs | hs⟩
      · exact ⟨h, hh, a, b, hs⟩
      · exact absurd hs (hno h hh)
    · rintro ⟨h, hh, a, b, hs⟩
      exact ⟨h, hh, a, b, Or.inl hs⟩

end

/-- The hypotheses hold of the ramp, which has an edge that is listed because a facet goes straight on after it, and of the panel. -/
example : ((∀ f ∈ ramp.fs, CoplanarFacets ramp f f) ∧ LongEdges ramp ∧ StraightAfter ramp 3 ∧ ramp.combinable 0 = .ok [ramp.opp 3]) ∧
    LongEdges panel ∧ (∀ h ∈ panel.hs, panel.face h ≠ none → ¬ StraightAfter panel h) := by
  refine ⟨⟨fun f hf => ?_, ?_, ?_, by decide +kernel⟩, ?_, ?_⟩
  · have : f = 0 ∨ f = 1 := by
      have : f < 2 := List.mem_range.1 hf
      omega
    rcases this with rfl | rfl
    · exact coplanar_check ⟨0, 0, 1⟩ (by decide +kernel) (by decide +kernel)
    · exact coplanar_check ⟨2, -1, 0⟩ (by decide +kernel) (by decide +kernel)
  · unfold LongEdges; decide +kernel
  · unfold StraightAfter; decide +kernel
  · unfold LongEdges; decide +kernel
  · unfold StraightAfter; decide +kernel

end City.Props
