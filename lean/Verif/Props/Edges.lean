import Verif.Model.Edges
import Verif.Props.Measure
import Verif.Props.Prune
/-!
C74, C75: the edges between coplanar facets and the edges of the border.
-/
set_option linter.unusedSectionVars false
namespace City.Props
open City City.Spec V3

section
variable {K : Type} [Field K] [LinearOrder K] [IsStrictOrderedRing K] {S : Surf K}

/-- All the corners of the facets `f` and `g` are on one plane. -/
def CoplanarFacets (S : Surf K) (f g : Nat) : Prop :=
  ∃ N : V3 K, N ≠ zero ∧ ∀ p q, (Corner S f p ∨ Corner S g p) → (Corner S f q ∨ Corner S g q) → dot N (vec p q) = 0

/-- No facet goes straight on at a corner. -/
def NoStraight (S : Surf K) : Prop := ∀ h ∈ S.hs, S.face h ≠ none →
  cross (vec (S.pt (S.vert h)) (S.pt (S.vert (S.next h)))) (vec (S.pt (S.vert (S.next h))) (S.pt (S.vert (S.next (S.next h))))) ≠ zero

/-- The half-edge `h` separates two coplanar facets. -/
def Separates (S : Surf K) (h : Nat) : Prop := ∃ f g, S.face h = some f ∧ S.face (S.opp h) = some g ∧ CoplanarFacets S f g

theorem det_expand (a b c N : V3 K) : smul (determinant a b c) N =
    add (add (smul (dot N a) (cross b c)) (smul (dot N b) (cross c a))) (smul (dot N c) (cross a b)) := by
  ext <;> simp only [smul, determinant, add, dot, cross] <;> ring

theorem smul_eq_zero' {s : K} {a : V3 K} (h : smul s a = zero) (ha : a ≠ zero) : s = 0 := by
  by_contra hs
  refine ha ?_
  ext
  · exact (mul_eq_zero.1 (congrArg V3.x h : s * a.x = 0)).resolve_left hs
  · exact (mul_eq_zero.1 (congrArg V3.y h : s * a.y = 0)).resolve_left hs
  · exact (mul_eq_zero.1 (congrArg V3.z h : s * a.z = 0)).resolve_left hs

theorem det_of_normal {a b c N : V3 K} (hN : N ≠ zero) (ha : dot N a = 0) (hb : dot N b = 0) (hc : dot N c = 0) : determinant a b c = 0 := by
  refine smul_eq_zero' (a := N) ?_ hN
  rw [det_expand, ha, hb, hc]
  ext <;> simp [smul, add, zero]

/-- Normals of a plane spanned by two directions are multiples of their cross product. -/
theorem normal_multiple {u v N : V3 K} (hM : cross u v ≠ zero) (h1 : dot N u = 0) (h2 : dot N v = 0) : ∃ c, N = smul c (cross u v) := by
  refine smul_of_cross ?_ hM
  ext <;> simp only [cross, zero] <;> simp only [dot] at h1 h2
  · linear_combination (v.x) * h1 - (u.x) * h2
  · linear_combination (v.y) * h1 - (u.y) * h2
  · linear_combination (v.z) * h1 - (u.z) * h2

theorem smul_ne {c : K} {a : V3 K} (h : smul c a ≠ zero) : c ≠ 0 := by
  rintro rfl
  exact h (by ext <;> simp [smul, zero])

theorem dot_smul_zero {c : K} {a b : V3 K} (hc : c ≠ 0) : dot (smul c a) b = 0 ↔ dot a b = 0 := by
  have : dot (smul c a) b = c * dot a b := by simp only [dot, smul]; ring
  rw [this, mul_eq_zero]
  exact ⟨fun h => h.resolve_left hc, Or.inr⟩

/-- The test of `combinable` decides coplanarity, on surfaces whose facets are plane and turn at every corner. -/
theorem combine_test (V : ValidSurf S) (hF : ∀ f ∈ S.fs, CoplanarFacets S f f) (hN : NoStraight S) {h f g : Nat} (hh : h ∈ S.hs) (hf : S.face h = some f)
    (hg : S.face (S.opp h) = some g) :
    determinant (vec (S.pt (S.vert h)) (S.pt (S.vert (S.next h)))) (vec (S.pt (S.vert h)) (S.pt (S.vert (S.next (S.next h)))))
      (vec (S.pt (S.vert h)) (S.pt (S.vert (S.next (S.opp h))))) = 0 ↔ CoplanarFacets S f g := by
  have ho := V.opp_mem h hh
  have hp := V.prev_mem _ ho
  have hn := V.next_mem h hh
  have cA : Corner S f (S.pt (S.vert h)) := ⟨h, hh, hf, rfl⟩
  have cB : Corner S f (S.pt (S.vert (S.next h))) := ⟨_, hn, by rw [V.face_next h hh, hf], rfl⟩
  have cC : Corner S f (S.pt (S.vert (S.next (S.next h)))) := ⟨_, V.next_mem _ hn, by rw [V.face_next _ hn, V.face_next h hh, hf], rfl⟩
  have cE : Corner S f (S.pt (S.vert (S.opp h))) := by
    have h1 := V.prev_mem h hh
    refine ⟨S.prev h, h1, by rw [← V.face_next _ h1, V.next_prev h hh, hf], ?_⟩
    rw [← V.turn _ h1, V.next_prev h hh]
  have gE : Corner S g (S.pt (S.vert (S.opp h))) := ⟨_, ho, hg, rfl⟩
  have gD : Corner S g (S.pt (S.vert (S.next (S.opp h)))) := ⟨_, V.next_mem _ ho, by rw [V.face_next _ ho, hg], rfl⟩
  have pA : S.vert (S.prev (S.opp h)) = S.vert h := by rw [← V.turn _ hp, V.next_prev _ ho, V.opp_opp h hh]
  have gA : Corner S g (S.pt (S.vert h)) := ⟨_, hp, by rw [← V.face_next _ hp, V.next_prev _ ho, hg], by rw [pA]⟩
  have t1 := hN h hh (by rw [hf]; simp)
  have t2 := hN (S.prev (S.opp h)) hp (by rw [← V.face_next _ hp, V.next_prev _ ho, hg]; simp)
  rw [pA, V.next_prev _ ho] at t2
  generalize S.pt (S.vert h) = A at *
  generalize S.pt (S.vert (S.next h)) = B at *
  generalize S.pt (S.vert (S.next (S.next h))) = C at *
  generalize S.pt (S.vert (S.next (S.opp h))) = D at *
  generalize S.pt (S.vert (S.opp h)) = E at *
  constructor
  · intro hd
    obtain ⟨N, n0, n1⟩ := hF f (V.face_mem h hh f hf)
    obtain ⟨N', n0', n1'⟩ := hF g (V.face_mem _ ho g hg)
    obtain ⟨c, hc⟩ := normal_multiple t1 (n1 _ _ (Or.inl cA) (Or.inl cB)) (n1 _ _ (Or.inl cB) (Or.inl cC))
    have c0 : c ≠ 0 := smul_ne (a := cross (vec A B) (vec B C)) (by rw [← hc]; exact n0)
    have hND : dot N (vec A D) = 0 := by
      rw [hc, dot_smul_zero c0]
      rw [← hd]
      simp only [dot, cross, vec, determinant]; ring
    have hNE : dot N (vec A E) = 0 := n1 _ _ (Or.inl cA) (Or.inl cE)
    have hNED : dot N (vec E D) = 0 := by
      have : dot N (vec E D) = dot N (vec A D) - dot N (vec A E) := by simp only [dot, vec]; ring
      rw [this, hND, hNE, sub_zero]
    obtain ⟨d, hd1⟩ := normal_multiple t2 hNE hNED
    obtain ⟨d', hd2⟩ := normal_multiple t2 (n1' _ _ (Or.inl gA) (Or.inl gE)) (n1' _ _ (Or.inl gE) (Or.inl gD))
    have d0 : d ≠ 0 := smul_ne (a := cross (vec A E) (vec E D)) (by rw [← hd1]; exact n0)
    have d0' : d' ≠ 0 := smul_ne (a := cross (vec A E) (vec E D)) (by rw [← hd2]; exact n0')
    have key : ∀ p, (Corner S f p ∨ Corner S g p) → dot N (vec A p) = 0 := by
      rintro p (hp | hp)
      · exact n1 _ _ (Or.inl cA) (Or.inl hp)
      · have := n1' _ _ (Or.inl gA) (Or.inl hp)
        rw [hd2, dot_smul_zero d0'] at this
        rw [hd1, dot_smul_zero d0]
        exact this
    refine ⟨N, n0, fun p q hp hq => ?_⟩
    have : dot N (vec p q) = dot N (vec A q) - dot N (vec A p) := by simp only [dot, vec]; ring
    rw [this, key p hp, key q hq, sub_zero]
  · rintro ⟨N, n0, n1⟩
    exact det_of_normal n0 (n1 _ _ (Or.inl cA) (Or.inl cB)) (n1 _ _ (Or.inl cA) (Or.inl cC)) (n1 _ _ (Or.inl cA) (Or.inr gD))

theorem borderEdge_iff (h : Nat) : S.isBorderEdge h = true ↔ S.face h = none ∨ S.face (S.opp h) = none := by
  simp [Surf.isBorderEdge, Surf.isBorder]

/-- The full claim: `combinable` lists exactly the half-edges opposite to an edge of the facet which separates it from a coplanar facet, on every valid surface with plane facets. -/
def C74_full : Prop := ∀ (S : Surf ℚ), ValidSurf S → (∀ f ∈ S.fs, CoplanarFacets S f f) → ∀ f ∈ S.fs, ∃ l, S.combinable f = .ok l ∧
  ∀ k, k ∈ l ↔ ∃ h ∈ S.hs, S.face h = some f ∧ k = S.opp h ∧ Separates S h

/-- C74 (partial): if moreover no facet goes straight on at a corner, `combinable` lists the half-edges opposite to the edges of the facet across which the neighbour is
coplanar, each once, and no others. -/
theorem C74_combinable_partial (V : ValidSurf S) (hF : ∀ f ∈ S.fs, CoplanarFacets S f f) (hN : NoStraight S) (f : Nat) (hf : f ∈ S.fs) :
    ∃ l, S.combinable f = .ok l ∧ l.Nodup ∧ ∀ k, k ∈ l ↔ ∃ h ∈ S.hs, S.face h = some f ∧ k = S.opp h ∧ Separates S h := by
  obtain ⟨l, h1, h2, h3, _⟩ := V.around hf
  refine ⟨_, by unfold Surf.combinable; rw [h1, Out.ok_bind], ?_, ?_⟩
  · refine (List.nodup_map_iff_inj_on (h2.filter _)).2 fun a ha b hb hab => ?_
    have ha' := ((h3 a).1 (List.mem_filter.1 ha).1).1
    have hb' := ((h3 b).1 (List.mem_filter.1 hb).1).1
    rw [← V.opp_opp a ha', hab, V.opp_opp b hb']
  · intro k
    rw [List.mem_map]
    constructor
    · rintro ⟨h, hm, rfl⟩
      rw [List.mem_filter, Bool.and_eq_true, Bool.not_eq_true', decide_eq_true_eq] at hm
      obtain ⟨hl, hb, hd⟩ := hm
      obtain ⟨hh, hhf⟩ := (h3 h).1 hl
      rw [← Bool.not_eq_true, borderEdge_iff, not_or] at hb
      obtain ⟨g, hg⟩ := Option.ne_none_iff_exists'.1 hb.2
      exact ⟨h, hh, hhf, rfl, f, g, hhf, hg, (combine_test V hF hN hh hhf hg).1 hd⟩
    · rintro ⟨h, hh, hhf, rfl, f', g, hf', hg, hc⟩
      rw [hhf] at hf'
      cases hf'
      refine ⟨h, ?_, rfl⟩
      rw [List.mem_filter, Bool.and_eq_true, Bool.not_eq_true', decide_eq_true_eq, ← Bool.not_eq_true, borderEdge_iff, not_or]
      exact ⟨(h3 h).2 ⟨hh, hhf⟩, ⟨by rw [hhf]; simp, by rw [hg]; simp⟩, (combine_test V hF hN hh hhf hg).2 hc⟩

/-- The edges of `h` and `k` have the same two ends in space. -/
def SameEnds (S : Surf K) (k h : Nat) : Prop :=
  (S.pt (S.vert k) = S.pt (S.vert h) ∧ S.pt (S.vert (S.opp k)) = S.pt (S.vert (S.opp h))) ∨
  (S.pt (S.vert (S.opp k)) = S.pt (S.vert h) ∧ S.pt (S.vert k) = S.pt (S.vert (S.opp h)))

theorem sameEnds_iff (k h : Nat) : S.sameEnds k h = true ↔ SameEnds S k h := by
  simp [Surf.sameEnds, SameEnds]

theorem addEdges_spec : ∀ (buffer acc : List Nat), acc.Pairwise (fun a b => ¬ SameEnds S a b) →
    (S.addEdges acc buffer).Pairwise (fun a b => ¬ SameEnds S a b) ∧ (∀ k ∈ S.addEdges acc buffer, k ∈ acc ∨ k ∈ buffer) ∧
    (∀ k ∈ acc, k ∈ S.addEdges acc buffer) ∧ ∀ h ∈ buffer, ∃ k ∈ S.addEdges acc buffer, SameEnds S k h
  | [], acc, hp => ⟨hp, fun k hk => Or.inl hk, fun k hk => hk, by simp⟩
  | h :: buffer, acc, hp => by
    unfold Surf.addEdges
    by_cases hc : (acc.all fun present => !S.sameEnds present h) = true
    · rw [if_pos hc]
      rw [List.all_eq_true] at hc
      have hp' : (acc ++ [h]).Pairwise (fun a b => ¬ SameEnds S a b) := by
        rw [List.pairwise_append]
        refine ⟨hp, by simp, fun a ha b hb => ?_⟩
        rw [List.mem_singleton] at hb
        subst hb
        have := hc a ha
        rw [Bool.not_eq_true', ← Bool.not_eq_true, sameEnds_iff] at this
        exact this
      obtain ⟨i1, i2, i3, i4⟩ := addEdges_spec buffer (acc ++ [h]) hp'
      refine ⟨i1, fun k hk => ?_, fun k hk => i3 k (List.mem_append_left _ hk), fun x hx => ?_⟩
      · rcases i2 k hk with h1 | h1
        · rcases List.mem_append.1 h1 with h2 | h2
          · exact Or.inl h2
          · rw [List.mem_singleton] at h2
            exact Or.inr (by rw [h2]; exact List.mem_cons_self)
        · exact Or.inr (List.mem_cons_of_mem _ h1)
      · rcases List.mem_cons.1 hx with rfl | hx
        · exact ⟨x, i3 x (by simp), Or.inl ⟨rfl, rfl⟩⟩
        · exact i4 x hx
    · rw [if_neg hc]
      obtain ⟨i1, i2, i3, i4⟩ := addEdges_spec buffer acc hp
      refine ⟨i1, fun k hk => (i2 k hk).imp id (List.mem_cons_of_mem _), i3, fun x hx => ?_⟩
      rcases List.mem_cons.1 hx with rfl | hx
      · rw [List.all_eq_true] at hc
        push Not at hc
        obtain ⟨k, hk, hs⟩ := hc
        rw [ne_eq, Bool.not_eq_true', Bool.not_eq_false, sameEnds_iff] at hs
        exact ⟨k, i3 k hk, hs⟩
      · exact i4 x hx

theorem coplanar_symm {f g : Nat} (h : CoplanarFacets S f g) : CoplanarFacets S g f := by
  obtain ⟨N, n0, n1⟩ := h
  exact ⟨N, n0, fun p q hp hq => n1 p q hp.symm hq.symm⟩

theorem separates_opp (V : ValidSurf S) {h : Nat} (hh : h ∈ S.hs) (hs : Separates S h) : Separates S (S.opp h) := by
  obtain ⟨f, g, a, b, c⟩ := hs
  exact ⟨g, f, b, by rw [V.opp_opp h hh]; exact a, coplanar_symm c⟩

theorem pruningLoop_spec (V : ValidSurf S) (hF : ∀ f ∈ S.fs, CoplanarFacets S f f) (hN : NoStraight S) : ∀ (fs acc : List Nat), (∀ f ∈ fs, f ∈ S.fs) →
    acc.Pairwise (fun a b => ¬ SameEnds S a b) → (∀ k ∈ acc, k ∈ S.hs ∧ Separates S k) →
    ∃ l, S.pruningLoop fs acc = .ok l ∧ l.Pairwise (fun a b => ¬ SameEnds S a b) ∧ (∀ k ∈ l, k ∈ S.hs ∧ Separates S k) ∧ (∀ k ∈ acc, k ∈ l) ∧
      ∀ h ∈ S.hs, Separates S h → (∃ f ∈ fs, S.face h = some f) → ∃ k ∈ l, SameEnds S k h
  | [], acc, _, hp, ha => ⟨acc, rfl, hp, ha, fun _ h => h, by simp⟩
  | f :: fs, acc, hfs, hp, ha => by
    obtain ⟨b, b1, _, b2⟩ := C74_combinable_partial V hF hN f (hfs f List.mem_cons_self)
    obtain ⟨c1, c2, c3, c4⟩ := addEdges_spec (S := S) b acc hp
    obtain ⟨l, d1, d2, d3, d4, d5⟩ := pruningLoop_spec V hF hN fs (S.addEdges acc b) (fun x hx => hfs x (List.mem_cons_of_mem _ hx)) c1 (by
      intro k hk
      rcases c2 k hk with h | h
      · exact ha k h
      · obtain ⟨x, hx, _, rfl, hs⟩ := (b2 k).1 h
        exact ⟨V.opp_mem x hx, separates_opp V hx hs⟩)
    refine ⟨l, by unfold Surf.pruningLoop; rw [b1, Out.ok_bind, d1], d2, d3, fun k hk => d4 k (c3 k hk), ?_⟩
    rintro h hh hs ⟨f', hf', hff⟩
    rcases List.mem_cons.1 hf' with rfl | hf'
    · obtain ⟨k, hk, hse⟩ := c4 (S.opp h) ((b2 _).2 ⟨h, hh, hff, rfl, hs⟩)
      refine ⟨k, d4 k hk, ?_⟩
      rcases hse with ⟨e1, e2⟩ | ⟨e1, e2⟩
      · exact Or.inr ⟨by rw [e2, V.opp_opp h hh], e1⟩
      · exact Or.inl ⟨by rw [e2, V.opp_opp h hh], e1⟩
    · exact d5 h hh hs ⟨f', hf', hff⟩

/-- C74 (partial): `pruning_halfedges` lists half-edges between coplanar facets, no two with the same ends, and for every edge between coplanar facets there is one with
its ends. -/
theorem C74_pruning_partial (V : ValidSurf S) (hF : ∀ f ∈ S.fs, CoplanarFacets S f f) (hN : NoStraight S) :
    ∃ l, S.pruningHalfedges = .ok l ∧ (∀ k ∈ l, k ∈ S.hs ∧ Separates S k) ∧ l.Pairwise (fun a b => ¬ SameEnds S a b) ∧
      ∀ h ∈ S.hs, Separates S h → ∃ k ∈ l, SameEnds S k h := by
  obtain ⟨l, d1, d2, d3, _, d5⟩ := pruningLoop_spec V hF hN S.fs [] (fun f h => h) .nil (by simp)
  refine ⟨l, d1, d3, d2, fun h hh hs => d5 h hh hs ?_⟩
  obtain ⟨f, g, hf, _⟩ := hs
  exact ⟨f, V.face_mem h hh f hf, hf⟩

/-- C74 (partial): when different edges have different ends, every edge between coplanar facets is listed exactly once, by one of its two half-edges. -/
theorem C74_once_partial (V : ValidSurf S) (hF : ∀ f ∈ S.fs, CoplanarFacets S f f) (hN : NoStraight S)
    (hE : ∀ h ∈ S.hs, ∀ k ∈ S.hs, SameEnds S k h → k = h ∨ k = S.opp h) :
    ∃ l, S.pruningHalfedges = .ok l ∧ l.Nodup ∧ ∀ h ∈ S.hs, (Separates S h → (h ∈ l ∧ S.opp h ∉ l) ∨ (h ∉ l ∧ S.opp h ∈ l)) ∧ (¬ Separates S h → h ∉ l) := by
  obtain ⟨l, d1, d2, d3, d4⟩ := C74_pruning_partial V hF hN
  have self : ∀ h, SameEnds S h h := fun h => Or.inl ⟨rfl, rfl⟩
  have nd : l.Nodup := d3.imp fun hab hne => hab (by rw [hne]; exact self _)
  refine ⟨l, d1, nd, fun h hh => ⟨fun hs => ?_, fun hs hm => hs (d2 h hm).2⟩⟩
  have excl : ¬ (h ∈ l ∧ S.opp h ∈ l) := by
    rintro ⟨h1, h2⟩
    have hne : h ≠ S.opp h := (V.opp_ne h hh).symm
    have se1 : SameEnds S h (S.opp h) := Or.inr ⟨rfl, by rw [V.opp_opp h hh]⟩
    have se2 : SameEnds S (S.opp h) h := Or.inr ⟨by rw [V.opp_opp h hh], rfl⟩
    obtain ⟨i, hi, ei⟩ := List.getElem_of_mem h1
    obtain ⟨j, hj, ej⟩ := List.getElem_of_mem h2
    have hd := List.pairwise_iff_getElem.1 d3
    rcases Nat.lt_trichotomy i j with hlt | heq | hgt
    · exact hd i j hi hj hlt (by rw [ei, ej]; exact se1)
    · subst heq
      exact hne (ei.symm.trans ej)
    · exact hd j i hj hi hgt (by rw [ei, ej]; exact se2)
  obtain ⟨k, hk, hse⟩ := d4 h hh hs
  rcases hE h hh k (d2 k hk).1 hse with rfl | rfl
  · exact Or.inl ⟨hk, fun h2 => excl ⟨hk, h2⟩⟩
  · exact Or.inr ⟨fun h2 => excl ⟨h2, hk⟩, hk⟩
end

/-- A quadrangle that goes straight on at its second corner, and a triangle that stands on one of its edges. -/
def ramp : Surf ℚ := ofTables
  [1, 2, 3, 0, 5, 6, 4, 11, 7, 8, 9, 10]
  [3, 0, 1, 2, 6, 4, 5, 8, 9, 10, 11, 7]
  [7, 8, 9, 4, 3, 10, 11, 0, 1, 2, 5, 6]
  [1, 2, 3, 0, 3, 4, 0, 0, 1, 2, 3, 4]
  [some 0, some 0, some 0, some 0, some 1, some 1, some 1, none, none, none, none, none]
  [0, 4]
  [⟨0, 0, 0⟩, ⟨1, 0, 0⟩, ⟨2, 0, 0⟩, ⟨1, 2, 0⟩, ⟨0, 0, 5⟩]

theorem ramp_valid : ValidSurf ramp := checkSurf_valid (by decide +kernel)

theorem coplanar_check {S : Surf ℚ} {f g : Nat} (N : V3 ℚ) (h0 : N ≠ zero) (h : ∀ x ∈ S.hs, ∀ y ∈ S.hs,
    (S.face x = some f ∨ S.face x = some g) → (S.face y = some f ∨ S.face y = some g) → dot N (vec (S.pt (S.vert x)) (S.pt (S.vert y))) = 0) :
    CoplanarFacets S f g := by
  refine ⟨N, h0, ?_⟩
  rintro p q (⟨x, hx, hxf, rfl⟩ | ⟨x, hx, hxf, rfl⟩) (⟨y, hy, hyf, rfl⟩ | ⟨y, hy, hyf, rfl⟩)
  · exact h x hx y hy (Or.inl hxf) (Or.inl hyf)
  · exact h x hx y hy (Or.inl hxf) (Or.inr hyf)
  · exact h x hx y hy (Or.inr hxf) (Or.inl hyf)
  · exact h x hx y hy (Or.inr hxf) (Or.inr hyf)

/-- C74 is false: where a facet goes straight on at a corner three of the four points are on one line, and the neighbour is taken for coplanar whatever its slope. -/
theorem C74_refuted : ¬ C74_full := by
  intro h
  have hF : ∀ f ∈ ramp.fs, CoplanarFacets ramp f f := by
    intro f hf
    have : f = 0 ∨ f = 1 := by
      have : f < 2 := List.mem_range.1 hf
      omega
    rcases this with rfl | rfl
    · exact coplanar_check ⟨0, 0, 1⟩ (by decide +kernel) (by decide +kernel)
    · exact coplanar_check ⟨2, -1, 0⟩ (by decide +kernel) (by decide +kernel)
  obtain ⟨l, h1, h2⟩ := h ramp ramp_valid hF 0 (by decide)
  have h3 : ramp.combinable 0 = .ok [4] := by decide +kernel
  rw [h3] at h1
  cases h1
  obtain ⟨x, hx, hxf, hk, f, g, hf, hg, N, n0, n1⟩ := (h2 4).1 (by simp)
  rw [hxf] at hf
  cases hf
  rw [← hk] at hg
  have hg' : g = 1 := by
    have : ramp.face 4 = some 1 := by decide +kernel
    rw [this] at hg
    exact (Option.some.inj hg).symm
  subst hg'
  have c0 : Corner ramp 0 ⟨0, 0, 0⟩ := ⟨3, by decide +kernel, by decide +kernel, by decide +kernel⟩
  have c1 : Corner ramp 0 ⟨1, 0, 0⟩ := ⟨0, by decide +kernel, by decide +kernel, by decide +kernel⟩
  have c3 : Corner ramp 0 ⟨1, 2, 0⟩ := ⟨2, by decide +kernel, by decide +kernel, by decide +kernel⟩
  have c4 : Corner ramp 1 ⟨0, 0, 5⟩ := ⟨5, by decide +kernel, by decide +kernel, by decide +kernel⟩
  have e1 := n1 _ _ (Or.inl c0) (Or.inl c1)
  have e2 := n1 _ _ (Or.inl c0) (Or.inl c3)
  have e3 := n1 _ _ (Or.inl c0) (Or.inr c4)
  simp only [dot, vec] at e1 e2 e3
  refine n0 ?_
  ext <;> simp only [zero] <;> linarith

/-- The hypotheses of the positive theorems are met by the panel, whose diagonal is found once. -/
example : (∀ f ∈ panel.fs, CoplanarFacets panel f f) ∧ NoStraight panel ∧ (∀ h ∈ panel.hs, ∀ k ∈ panel.hs, SameEnds panel k h → k = h ∨ k = panel.opp h) ∧
    Separates panel 2 ∧ panel.pruningHalfedges = .ok [3] := by
  refine ⟨fun f hf => ?_, ?_, ?_, ⟨0, 1, by decide +kernel, by decide +kernel, coplanar_check ⟨0, 0, 1⟩ (by decide +kernel) (by decide +kernel)⟩, by decide +kernel⟩
  · have : f = 0 ∨ f = 1 := by
      have : f < 2 := List.mem_range.1 hf
      omega
    rcases this with rfl | rfl
    · exact coplanar_check ⟨0, 0, 1⟩ (by decide +kernel) (by decide +kernel)
    · exact coplanar_check ⟨0, 0, 1⟩ (by decide +kernel) (by decide +kernel)
  · unfold NoStraight; decide +kernel
  · unfold SameEnds; decide +kernel

/-- Nothing is found on a tetrahedron. -/
example : tetra.pruningHalfedges = .ok [] := by decide +kernel

/-! ### the length of the border -/

/-- `k` is the position of the first border edge, as `normalize_border` leaves it: the edges without border come first, then the border edges with both their half-edges. -/
structure Normalised (S : Surf ℝ) (k : Nat) : Prop where
  inner : ∀ h ∈ S.hs.take k, S.face h ≠ none ∧ S.face (S.opp h) ≠ none
  border : ∀ h ∈ S.hs.drop k, S.face h = none ∨ S.face (S.opp h) = none

/-- The length of the border: the sum over the half-edges on the border. -/
noncomputable def lengthOfBorder (S : Surf ℝ) : ℝ :=
  ((S.hs.filter fun h => decide (S.face h = none)).map fun h => distance (S.pt (S.vert (S.opp h))) (S.pt (S.vert h))).sum

/-- The full claim about `border_length`. -/
def C75_full : Prop := ∀ (S : Surf ℝ) (k : Nat), ValidSurf S → (∀ h ∈ S.hs, S.face h = none → S.face (S.opp h) ≠ none) → Normalised S k →
  S.borderLength (some k) = .ok (lengthOfBorder S)

variable {S : Surf ℝ}

theorem step_length (V : ValidSurf S) {h : Nat} (hh : h ∈ S.hs) :
    Real.sqrt (V3.dot (V3.vec (S.pt (S.vert (S.next h))) (S.pt (S.vert h))) (V3.vec (S.pt (S.vert (S.next h))) (S.pt (S.vert h)))) =
      distance (S.pt (S.vert (S.opp (S.next h)))) (S.pt (S.vert (S.next h))) := by
  rw [V.turn h hh]
  unfold distance dist2
  congr 1
  simp only [dot, vec]; ring

theorem sum_filter_split {α : Type} (p : α → Bool) (g : α → ℝ) (l : List α) :
    (l.map g).sum = ((l.filter p).map g).sum + ((l.filter fun x => !p x).map g).sum := by
  induction l with
  | nil => simp
  | cons a l ih =>
    rw [List.map_cons, List.sum_cons, ih]
    cases h : p a <;> simp [List.filter_cons, h] <;> ring

theorem next_perm_border (V : ValidSurf S) :
    ((S.hs.filter fun h => decide (S.face h = none)).map S.next).Perm (S.hs.filter fun h => decide (S.face h = none)) := by
  refine (List.perm_ext_iff_of_nodup ?_ (V.nodup.filter _)).2 fun x => ?_
  · refine (List.nodup_map_iff_inj_on (V.nodup.filter _)).2 fun a ha b hb hab => ?_
    exact V.next_inj (List.mem_filter.1 ha).1 (List.mem_filter.1 hb).1 hab
  · simp only [List.mem_map, List.mem_filter, decide_eq_true_eq]
    constructor
    · rintro ⟨h, ⟨hh, hb⟩, rfl⟩
      exact ⟨V.next_mem h hh, by rw [V.face_next h hh, hb]⟩
    · rintro ⟨hx, hb⟩
      have hp := V.prev_mem x hx
      exact ⟨S.prev x, ⟨hp, by rw [← V.face_next _ hp, V.next_prev x hx, hb]⟩, V.next_prev x hx⟩

/-- C75 (partial): what `border_length` returns is the length of the border plus, for every border edge, the length of the edge that follows it in the facet on its inner side. -/
theorem C75_exact_partial (V : ValidSurf S) (k : Nat) (hk : Normalised S k) : S.borderLength (some k) = .ok (lengthOfBorder S +
    ((S.hs.filter fun h => decide (S.face h ≠ none ∧ S.face (S.opp h) = none)).map fun h =>
      distance (S.pt (S.vert h)) (S.pt (S.vert (S.next h)))).sum) := by
  unfold Surf.borderLength
  simp only
  rw [foldl_add_sum, zero_add]
  congr 1
  have hdrop : S.hs.drop k = S.hs.filter fun h => decide (S.face h = none ∨ S.face (S.opp h) = none) := by
    conv_rhs => rw [← List.take_append_drop k S.hs, List.filter_append]
    rw [List.filter_eq_nil_iff.2, List.nil_append, List.filter_eq_self.2]
    · intro h hh; simpa using hk.border h hh
    · intro h hh
      have := hk.inner h hh
      simp [this.1, this.2]
  have hmem : ∀ h ∈ S.hs.drop k, h ∈ S.hs := fun h hh => List.mem_of_mem_drop hh
  rw [List.map_congr_left fun h hh => step_length V (hmem h hh), hdrop]
  rw [sum_filter_split fun h => decide (S.face h = none)]
  congr 1
  · unfold lengthOfBorder
    rw [List.filter_filter]
    have e : (fun a => decide (S.face a = none) && decide (S.face a = none ∨ S.face (S.opp a) = none)) = fun a => decide (S.face a = none) := by
      funext a
      by_cases h : S.face a = none <;> simp [h]
    rw [e, ← ((next_perm_border V).map fun h => distance (S.pt (S.vert (S.opp h))) (S.pt (S.vert h))).sum_eq, List.map_map]
    rfl
  · rw [List.filter_filter]
    have e : (fun a => !decide (S.face a = none) && decide (S.face a = none ∨ S.face (S.opp a) = none)) =
        fun a => decide (S.face a ≠ none ∧ S.face (S.opp a) = none) := by
      funext a
      by_cases h : S.face a = none <;> simp [h]
    rw [e]
    congr 1
    apply List.map_congr_left
    intro h hh
    rw [V.turn h (List.mem_filter.1 hh).1]

/-- C75: a closed surface has a border of length zero; without `normalize_border` the result is not defined. -/
theorem C75_closed (V : ValidSurf S) (hc : ∀ h ∈ S.hs, S.face h ≠ none) (k : Nat) (hk : Normalised S k) :
    S.borderLength (some k) = .ok 0 ∧ S.borderLength none = .ub := by
  refine ⟨?_, rfl⟩
  rw [C75_exact_partial V k hk, lengthOfBorder, List.filter_eq_nil_iff.2, List.filter_eq_nil_iff.2]
  · simp
  · intro h hh; simp [hc _ (V.opp_mem h hh)]
  · intro h hh; simp [hc h hh]

/-- C75: on every surface with a border and without edges of length zero, the result is too long. -/
theorem C75_too_long (V : ValidSurf S) (k : Nat) (hk : Normalised S k) (hb : ∃ h ∈ S.hs, S.face h = none ∧ S.face (S.opp h) ≠ none)
    (hd : ∀ h ∈ S.hs, S.pt (S.vert h) ≠ S.pt (S.vert (S.opp h))) : ∃ r, S.borderLength (some k) = .ok r ∧ lengthOfBorder S < r := by
  refine ⟨_, C75_exact_partial V k hk, ?_⟩
  obtain ⟨h, hh, hn, ho⟩ := hb
  have hho := V.opp_mem h hh
  have hmem : S.opp h ∈ S.hs.filter fun h => decide (S.face h ≠ none ∧ S.face (S.opp h) = none) := by
    rw [List.mem_filter, decide_eq_true_eq, V.opp_opp h hh]
    exact ⟨hho, ho, hn⟩
  have hpos : 0 < distance (S.pt (S.vert (S.opp h))) (S.pt (S.vert (S.next (S.opp h)))) := by
    have hne := hd _ (V.next_mem _ hho)
    rw [V.turn _ hho] at hne
    unfold distance
    apply Real.sqrt_pos.2
    have hv : vec (S.pt (S.vert (S.opp h))) (S.pt (S.vert (S.next (S.opp h)))) ≠ zero := by
      intro he
      apply hne
      have hx := congrArg V3.x he
      have hy := congrArg V3.y he
      have hz := congrArg V3.z he
      simp only [vec, zero] at hx hy hz
      ext <;> linarith
    have := dot_self_pos hv
    simp only [dot, vec] at this
    unfold dist2
    linarith
  have hle := List.single_le_sum (l := (S.hs.filter fun h => decide (S.face h ≠ none ∧ S.face (S.opp h) = none)).map fun h =>
      distance (S.pt (S.vert h)) (S.pt (S.vert (S.next h)))) (by
    intro x hx
    obtain ⟨y, _, rfl⟩ := List.mem_map.1 hx
    exact Real.sqrt_nonneg _) _ (List.mem_map_of_mem hmem)
  linarith

/-- The panel with the half-edges in the order of `normalize_border`. -/
noncomputable def panelSorted : Surf ℝ := { realSurf panel with hs := [2, 3, 0, 6, 1, 7, 4, 8, 5, 9] }

theorem panelSorted_valid : ValidSurf panelSorted := by
  have h : ValidSurf { panel with hs := [2, 3, 0, 6, 1, 7, 4, 8, 5, 9] } := checkSurf_valid (by decide +kernel)
  exact realSurf_valid h

theorem panelSorted_normalised : Normalised panelSorted 2 := by
  have h1 : ∀ h ∈ [2, 3], panel.face h ≠ none ∧ panel.face (panel.opp h) ≠ none := by decide +kernel
  have h2 : ∀ h ∈ [0, 6, 1, 7, 4, 8, 5, 9], panel.face h = none ∨ panel.face (panel.opp h) = none := by decide +kernel
  exact ⟨h1, h2⟩

theorem panelSorted_points : ∀ h ∈ panelSorted.hs, panelSorted.pt (panelSorted.vert h) ≠ panelSorted.pt (panelSorted.vert (panelSorted.opp h)) := by
  have h1 : ∀ h ∈ [2, 3, 0, 6, 1, 7, 4, 8, 5, 9], panel.pt (panel.vert h) ≠ panel.pt (panel.vert (panel.opp h)) := by decide +kernel
  intro h hh he
  apply h1 h hh
  have hx := congrArg V3.x he
  have hy := congrArg V3.y he
  have hz := congrArg V3.z he
  simp only [panelSorted, realSurf, Rat.cast_inj] at hx hy hz
  ext <;> assumption

/-- C75 is false: the border of a square cut in two triangles is found too long. -/
theorem C75_refuted : ¬ C75_full := by
  intro h
  have hb : ∀ h ∈ [2, 3, 0, 6, 1, 7, 4, 8, 5, 9], panel.face h = none → panel.face (panel.opp h) ≠ none := by decide +kernel
  have h6 : panel.face 6 = none ∧ panel.face (panel.opp 6) ≠ none := by decide +kernel
  obtain ⟨r, h1, h2⟩ := C75_too_long panelSorted_valid 2 panelSorted_normalised ⟨6, by simp [panelSorted], h6⟩ panelSorted_points
  rw [h panelSorted 2 panelSorted_valid hb panelSorted_normalised] at h1
  rw [Out.ok.inj h1] at h2
  exact lt_irrefl _ h2

end City.Props
