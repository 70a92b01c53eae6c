import Verif.Props.Prune
/-!
Property C59: exactly when `prune` does its work. On a surface of plane facets without folds the loop of `prune` comes to its end if and only if every
corner of a flat edge has two edges where the surface is bent, and flat edges do not lead around in a ring.
-/
set_option linter.unusedSectionVars false
namespace City.Props
open City City.Spec V3

section
variable {K : Type} [Field K] [LinearOrder K] [IsStrictOrderedRing K] {S S1 S' : Surf K}

/-- The next half-edge that points to the same vertex. -/
def spin (S : Surf K) (x : Nat) : Nat := S.opp (S.next x)

/-- The facets on both sides of an edge are parallel. -/
def FlatEdge (S : Surf K) (x : Nat) : Prop := ∃ f g, S.face x = some f ∧ S.face (S.opp x) = some g ∧ ParallelFacets S f g

/-- Around each end of a flat edge there are two edges that are not flat (borders are not flat). -/
def BentCorners (S : Surf K) : Prop :=
  ∀ x ∈ S.hs, FlatEdge S x → ∃ i j : Nat, (spin S)^[i] x ≠ (spin S)^[j] x ∧ ¬ FlatEdge S ((spin S)^[i] x) ∧ ¬ FlatEdge S ((spin S)^[j] x)

/-- The facets `A` and the others are connected by the flat edge `x` only. -/
def CutAt (S : Surf K) (x : Nat) (A : Nat → Prop) : Prop :=
  (∀ f g, S.face x = some f → S.face (S.opp x) = some g → A f ∧ ¬ A g) ∧
  ∀ y ∈ S.hs, y ≠ x → y ≠ S.opp x → FlatEdge S y → ∀ k l, S.face y = some k → S.face (S.opp y) = some l → (A k ↔ A l)

/-- Flat edges do not lead around: without one of them its two sides are not connected by flat edges. -/
def NoRings (S : Surf K) : Prop := ∀ x ∈ S.hs, FlatEdge S x → ∃ A, CutAt S x A

theorem cross_anti {a b : V3 K} : cross a b = zero ↔ cross b a = zero := by
  have : ∀ a b : V3 K, cross a b = zero → cross b a = zero := by
    intro a b h
    have hx := congrArg V3.x h
    have hy := congrArg V3.y h
    have hz := congrArg V3.z h
    simp only [cross, zero] at hx hy hz ⊢
    ext <;> simp only <;> linarith
  exact ⟨this a b, this b a⟩

theorem flat_opp (V : ValidSurf S) {x : Nat} (hx : x ∈ S.hs) (h : FlatEdge S x) : FlatEdge S (S.opp x) := by
  obtain ⟨f, g, hf, hg, hp⟩ := h
  exact ⟨g, f, hg, by rw [V.opp_opp x hx]; exact hf, cross_anti.1 hp⟩

theorem spin_mem (V : ValidSurf S) {x : Nat} (hx : x ∈ S.hs) : spin S x ∈ S.hs := V.opp_mem _ (V.next_mem _ hx)

theorem spin_iter_mem (V : ValidSurf S) {x : Nat} (hx : x ∈ S.hs) : ∀ k, (spin S)^[k] x ∈ S.hs
  | 0 => hx
  | k + 1 => by rw [Function.iterate_succ_apply']; exact spin_mem V (spin_iter_mem V hx k)

theorem spin_inj (V : ValidSurf S) {x y : Nat} (hx : x ∈ S.hs) (hy : y ∈ S.hs) (h : spin S x = spin S y) : x = y := by
  have h1 := congrArg S.opp h
  unfold spin at h1
  rw [V.opp_opp _ (V.next_mem _ hx), V.opp_opp _ (V.next_mem _ hy)] at h1
  rw [← V.prev_next x hx, ← V.prev_next y hy, h1]

theorem spin_vert (V : ValidSurf S) {x : Nat} (hx : x ∈ S.hs) : S.vert (spin S x) = S.vert x := V.turn x hx

/-- What a join does to the links, the facets and the flat edges. -/
theorem join_facts (V : ValidSurf S) (hF : FlatFacets S) (hN : NoFold S) {h f g : Nat} (hh : h ∈ S.hs) (hf : S.face h = some f) (hg : S.face (S.opp h) = some g)
    (hp : ParallelFacets S f g) (hj : S.joinFacet h = .ok S1) :
    f ≠ g ∧ S.degreeOk h = true ∧ S.degreeOk (S.opp h) = true ∧ ValidSurf S1 ∧ (∀ x, x ∈ S1.hs ↔ x ∈ S.hs ∧ x ≠ h ∧ x ≠ S.opp h) ∧ S1.opp = S.opp ∧
    (∀ x ∈ S1.hs, S1.face x = (S.face x).map fun k => if k = g then f else k) ∧
    (∀ x ∈ S1.hs, spin S1 x = if spin S x = h then spin S h else if spin S x = S.opp h then spin S (S.opp h) else spin S x) ∧
    ∀ x ∈ S1.hs, FlatEdge S1 x ↔ FlatEdge S x := by
  have hd : f ≠ g ∧ S.degreeOk h = true ∧ S.degreeOk (S.opp h) = true := by
    by_contra hc
    rw [(C59_join V h f g hh hf hg).2 hc] at hj
    cases hj
  obtain ⟨S2, j1, j2, j3, -, -, -, jo, -, -, j9⟩ := join_ok V hh hf hg hd.1 hd.2.1 hd.2.2
  rw [hj] at j1
  cases j1
  obtain ⟨S2, j1, -, -, -, -, -, -, -, j7, j8⟩ := (C59_join V h f g hh hf hg).1 hd
  rw [hj] at j1
  cases j1
  have ho := V.opp_mem h hh
  have hmem : ∀ x, x ∈ S1.hs ↔ x ∈ S.hs ∧ x ≠ h ∧ x ≠ S.opp h := by
    intro x; rw [j3, List.mem_filter, decide_eq_true_iff]
  have hface : ∀ x ∈ S1.hs, S1.face x = (S.face x).map fun k => if k = g then f else k := by
    intro x hx
    rw [j9 x hx]
    cases hx' : S.face x with
    | none => simp
    | some k =>
      simp only [Option.some.injEq, Option.map_some]
      split <;> rfl
  -- the links
  have n1 : S.next h ≠ S.opp h := by
    intro he
    have := V.face_next h hh
    rw [he, hg, hf] at this
    exact hd.1 (Option.some.inj this).symm
  have n2 : S.next (S.opp h) ≠ h := by
    intro he
    have := V.face_next _ ho
    rw [he, hf, hg] at this
    exact hd.1 (Option.some.inj this)
  have hnext : S1.next = upd (upd S.next (S.prev h) (S.next (S.opp h))) (S.prev (S.opp h)) (S.next h) := by
    have hjj := hj
    unfold Surf.joinFacet at hjj
    rw [if_neg (by simp [hd.2.1, hd.2.2])] at hjj
    obtain ⟨fc, -, h2⟩ := Out.bind_eq_ok.1 hjj
    cases h2
    exact (tips V hh n1 n2).1
  have hspin : ∀ x ∈ S1.hs, spin S1 x = if spin S x = h then spin S h else if spin S x = S.opp h then spin S (S.opp h) else spin S x := by
    intro x hx
    have hxS := ((hmem x).1 hx).1
    have c1 : spin S x = h ↔ x = S.prev (S.opp h) := by
      constructor
      · intro e
        have := congrArg S.opp e
        unfold spin at this
        rw [V.opp_opp _ (V.next_mem _ hxS)] at this
        rw [← this, V.prev_next x hxS]
      · rintro rfl
        unfold spin
        rw [V.next_prev _ ho, V.opp_opp h hh]
    have c2 : spin S x = S.opp h ↔ x = S.prev h := by
      constructor
      · intro e
        have := congrArg S.opp e
        unfold spin at this
        rw [V.opp_opp _ (V.next_mem _ hxS), V.opp_opp h hh] at this
        rw [← this, V.prev_next x hxS]
      · rintro rfl
        unfold spin
        rw [V.next_prev _ hh]
    rw [if_congr c1 rfl (if_congr c2 rfl rfl)]
    unfold spin
    rw [jo, hnext]
    unfold upd
    split
    · rfl
    · split
      · rfl
      · rfl
  -- the area vectors
  have hfm := V.face_mem h hh f hf
  obtain ⟨c, c0, hc⟩ := same_direction hF hN hfm ⟨h, hh, hf, hg⟩ hp
  have hsum : facetVector S1 f = smul (1 + c) (facetVector S f) := by
    rw [j7, hc]
    ext <;> simp only [add, smul] <;> ring
  have hpos : (0 : K) < 1 + c := by linarith
  have scaled : ∀ k, ∃ d, 0 < d ∧ facetVector S1 (if k = g then f else k) = smul d (facetVector S k) := by
    intro k
    by_cases hk : k = g
    · subst hk
      rw [if_pos rfl]
      refine ⟨(1 + c) / c, div_pos hpos c0, ?_⟩
      rw [hsum, hc]
      ext <;> simp only [smul] <;> field_simp
    · rw [if_neg hk]
      by_cases hkf : k = f
      · subst hkf; exact ⟨1 + c, hpos, hsum⟩
      · refine ⟨1, one_pos, ?_⟩
        rw [j8 k hkf hk]
        ext <;> simp [smul]
  have par : ∀ k l, ParallelFacets S1 (if k = g then f else k) (if l = g then f else l) ↔ ParallelFacets S k l := by
    intro k l
    obtain ⟨d, d0, e⟩ := scaled k
    obtain ⟨d', d0', e'⟩ := scaled l
    unfold ParallelFacets
    rw [e, e', cross_smul_zero d0 d0']
  refine ⟨hd.1, hd.2.1, hd.2.2, j2, hmem, jo, hface, hspin, fun x hx => ?_⟩
  have hxo : S.opp x ∈ S1.hs := by have := j2.opp_mem x hx; rwa [jo] at this
  unfold FlatEdge
  rw [jo, hface x hx, hface _ hxo]
  constructor
  · rintro ⟨a, b, ha, hb, hab⟩
    obtain ⟨k, hk, rfl⟩ := Option.map_eq_some_iff.1 ha
    obtain ⟨l, hl, rfl⟩ := Option.map_eq_some_iff.1 hb
    exact ⟨k, l, hk, hl, (par k l).1 hab⟩
  · rintro ⟨k, l, hk, hl, hkl⟩
    exact ⟨_, _, by rw [hk]; rfl, by rw [hl]; rfl, (par k l).2 hkl⟩

/-- One step of the spin is not one of the removed half-edges after a removed one. -/
theorem spin_removed (V : ValidSurf S) {h : Nat} (hh : h ∈ S.hs) (hd : S.degreeOk h = true) : spin S h ≠ h ∧ spin S h ≠ S.opp h ∧ spin S (spin S h) ≠ h := by
  unfold Surf.degreeOk at hd
  simp only [Bool.and_eq_true, decide_eq_true_eq] at hd
  refine ⟨hd.1, fun he => ?_, hd.2⟩
  have := spin_vert V hh
  rw [he] at this
  exact V.vert_ne h hh this.symm

/-- Joining takes half-edges out of the turn around a vertex, and leaves the order of the others. -/
theorem spin_forward (V : ValidSurf S) (V1 : ValidSurf S1) {h : Nat} (hh : h ∈ S.hs) (d1 : S.degreeOk h = true) (d2 : S.degreeOk (S.opp h) = true)
    (hmem : ∀ x, x ∈ S1.hs ↔ x ∈ S.hs ∧ x ≠ h ∧ x ≠ S.opp h)
    (hspin : ∀ x ∈ S1.hs, spin S1 x = if spin S x = h then spin S h else if spin S x = S.opp h then spin S (S.opp h) else spin S x) :
    ∀ (k x : Nat), x ∈ S1.hs → (spin S)^[k] x ≠ h → (spin S)^[k] x ≠ S.opp h → ∃ k', (spin S1)^[k'] x = (spin S)^[k] x := by
  have ho := V.opp_mem h hh
  intro k
  induction k using Nat.strong_induction_on with
  | _ k ih =>
    intro x hx e1 e2
    match k, ih, e1, e2 with
    | 0, _, _, _ => exact ⟨0, rfl⟩
    | k + 1, ih, e1, e2 =>
      rw [Function.iterate_succ_apply] at e1 e2 ⊢
      have hs1 := spin_mem V1 hx
      have hs := hspin x hx
      have skip : ∀ y, (y = h ∨ y = S.opp h) → spin S x = y → spin S1 x = spin S y → ∃ k', (spin S1)^[k'] x = (spin S)^[k] (spin S x) := by
        intro y hy hxy hxy1
        rw [hxy] at e1 e2 ⊢
        match k, ih, e1, e2 with
        | 0, _, e1, e2 => rcases hy with rfl | rfl <;> simp at e1 e2
        | k + 1, ih, e1, e2 =>
          rw [Function.iterate_succ_apply] at e1 e2 ⊢
          rw [← hxy1] at e1 e2 ⊢
          obtain ⟨k', hk'⟩ := ih k (by omega) (spin S1 x) hs1 e1 e2
          exact ⟨k' + 1, by rw [Function.iterate_succ_apply, hk']⟩
      by_cases c1 : spin S x = h
      · rw [if_pos c1] at hs
        exact skip h (Or.inl rfl) c1 hs
      · rw [if_neg c1] at hs
        by_cases c2 : spin S x = S.opp h
        · rw [if_pos c2] at hs
          exact skip (S.opp h) (Or.inr rfl) c2 hs
        · rw [if_neg c2] at hs
          rw [← hs] at e1 e2 ⊢
          obtain ⟨k', hk'⟩ := ih k (by omega) (spin S1 x) hs1 e1 e2
          exact ⟨k' + 1, by rw [Function.iterate_succ_apply, hk']⟩

theorem spin_backward (V1 : ValidSurf S1) {h : Nat}
    (hspin : ∀ x ∈ S1.hs, spin S1 x = if spin S x = h then spin S h else if spin S x = S.opp h then spin S (S.opp h) else spin S x) :
    ∀ (k x : Nat), x ∈ S1.hs → ∃ k', (spin S)^[k'] x = (spin S1)^[k] x
  | 0, x, _ => ⟨0, rfl⟩
  | k + 1, x, hx => by
    obtain ⟨k', hk'⟩ := spin_backward V1 hspin k (spin S1 x) (spin_mem V1 hx)
    rw [Function.iterate_succ_apply, ← hk']
    have hs := hspin x hx
    by_cases c1 : spin S x = h
    · rw [if_pos c1] at hs
      exact ⟨k' + 2, by rw [Function.iterate_add_apply, Function.iterate_succ_apply, Function.iterate_one, c1, ← hs]⟩
    · rw [if_neg c1] at hs
      by_cases c2 : spin S x = S.opp h
      · rw [if_pos c2] at hs
        exact ⟨k' + 2, by rw [Function.iterate_add_apply, Function.iterate_succ_apply, Function.iterate_one, c2, ← hs]⟩
      · rw [if_neg c2] at hs
        exact ⟨k' + 1, by rw [Function.iterate_succ_apply, ← hs]⟩

/-- A join neither makes nor mends a corner that is not bent. -/
theorem bent_join (V : ValidSurf S) (hF : FlatFacets S) (hN : NoFold S) {h f g : Nat} (hh : h ∈ S.hs) (hf : S.face h = some f) (hg : S.face (S.opp h) = some g)
    (hp : ParallelFacets S f g) (hj : S.joinFacet h = .ok S1) : BentCorners S1 ↔ BentCorners S := by
  obtain ⟨-, d1, d2, V1, hmem, hopp, -, hspin, hflat⟩ := join_facts V hF hN hh hf hg hp hj
  have ho := V.opp_mem h hh
  have fl : FlatEdge S h := ⟨f, g, hf, hg, hp⟩
  have flo := flat_opp V hh fl
  constructor
  · intro hb
    -- the half-edges that stay
    have stay : ∀ x ∈ S1.hs, FlatEdge S x → ∃ i j : Nat, (spin S)^[i] x ≠ (spin S)^[j] x ∧ ¬ FlatEdge S ((spin S)^[i] x) ∧ ¬ FlatEdge S ((spin S)^[j] x) := by
      intro x hx hfx
      obtain ⟨i, j, hij, hi, hjj⟩ := hb x hx ((hflat x hx).2 hfx)
      rw [hflat _ (spin_iter_mem V1 hx i)] at hi
      rw [hflat _ (spin_iter_mem V1 hx j)] at hjj
      obtain ⟨i', ei⟩ := spin_backward V1 hspin i x hx
      obtain ⟨j', ej⟩ := spin_backward V1 hspin j x hx
      exact ⟨i', j', by rw [ei, ej]; exact hij, by rw [ei]; exact hi, by rw [ej]; exact hjj⟩
    -- those that go
    have go : ∀ x, x ∈ S.hs → S.degreeOk x = true → (∀ y, y ∈ S1.hs ↔ y ∈ S.hs ∧ y ≠ x ∧ y ≠ S.opp x) →
        ∃ i j : Nat, (spin S)^[i] x ≠ (spin S)^[j] x ∧ ¬ FlatEdge S ((spin S)^[i] x) ∧ ¬ FlatEdge S ((spin S)^[j] x) := by
      intro x hx hd hm
      obtain ⟨s1, s2, s3⟩ := spin_removed V hx hd
      have m1 : spin S x ∈ S1.hs := (hm _).2 ⟨spin_mem V hx, s1, s2⟩
      have s4 : spin S (spin S x) ≠ S.opp x := by
        intro he
        have := spin_vert V (spin_mem V hx)
        rw [he, spin_vert V hx] at this
        exact V.vert_ne x hx this.symm
      have m2 : spin S (spin S x) ∈ S1.hs := (hm _).2 ⟨spin_mem V (spin_mem V hx), s3, s4⟩
      by_cases f1 : FlatEdge S (spin S x)
      · obtain ⟨i, j, hij⟩ := stay _ m1 f1
        exact ⟨i + 1, j + 1, by simpa only [Function.iterate_succ_apply] using hij⟩
      · by_cases f2 : FlatEdge S (spin S (spin S x))
        · obtain ⟨i, j, hij⟩ := stay _ m2 f2
          exact ⟨i + 2, j + 2, by simpa only [Function.iterate_add_apply, Function.iterate_succ_apply, Function.iterate_zero_apply, Function.iterate_one] using hij⟩
        · refine ⟨1, 2, ?_, f1, f2⟩
          show spin S x ≠ spin S (spin S x)
          intro he
          exact s1 (spin_inj V hx (spin_mem V hx) he).symm
    intro x hx hfx
    by_cases e1 : x = h
    · subst e1
      exact go x hx d1 hmem
    · by_cases e2 : x = S.opp h
      · subst e2
        refine go _ hx d2 fun y => ?_
        rw [hmem, V.opp_opp h hh]
        tauto
      · exact stay x ((hmem x).2 ⟨hx, e1, e2⟩) hfx
  · intro hb x hx hfx
    obtain ⟨hxS, -, -⟩ := (hmem x).1 hx
    obtain ⟨i, j, hij, hi, hjj⟩ := hb x hxS ((hflat x hx).1 hfx)
    have ne : ∀ k, ¬ FlatEdge S ((spin S)^[k] x) → (spin S)^[k] x ≠ h ∧ (spin S)^[k] x ≠ S.opp h := fun k hk =>
      ⟨fun e => hk (by rw [e]; exact fl), fun e => hk (by rw [e]; exact flo)⟩
    obtain ⟨i', ei⟩ := spin_forward V V1 hh d1 d2 hmem hspin i x hx (ne i hi).1 (ne i hi).2
    obtain ⟨j', ej⟩ := spin_forward V V1 hh d1 d2 hmem hspin j x hx (ne j hjj).1 (ne j hjj).2
    refine ⟨i', j', by rw [ei, ej]; exact hij, ?_, ?_⟩
    · rw [hflat _ (spin_iter_mem V1 hx i'), ei]; exact hi
    · rw [hflat _ (spin_iter_mem V1 hx j'), ej]; exact hjj

/-- A join neither makes nor opens a ring of flat edges. -/
theorem rings_join (V : ValidSurf S) (hF : FlatFacets S) (hN : NoFold S) {h f g : Nat} (hh : h ∈ S.hs) (hf : S.face h = some f) (hg : S.face (S.opp h) = some g)
    (hp : ParallelFacets S f g) (hj : S.joinFacet h = .ok S1) : NoRings S1 ↔ NoRings S := by
  obtain ⟨hne, d1, d2, V1, hmem, hopp, hface, -, hflat⟩ := join_facts V hF hN hh hf hg hp hj
  have ho := V.opp_mem h hh
  have hoo := V.opp_opp h hh
  have fl : FlatEdge S h := ⟨f, g, hf, hg, hp⟩
  have oppS : ∀ x ∈ S1.hs, S.opp x ∈ S1.hs := fun x hx => by have := V1.opp_mem x hx; rwa [hopp] at this
  have flip : ∀ x y, x ∈ S.hs → y ∈ S.hs → (S.opp x = y ↔ x = S.opp y) := fun x y hx hy =>
    ⟨fun e => by rw [← e, V.opp_opp x hx], fun e => by rw [e, V.opp_opp y hy]⟩
  constructor
  · intro hr
    -- the edges that stay
    have stay : ∀ x ∈ S1.hs, FlatEdge S x → ∃ A, CutAt S x A := by
      intro x hx hfx
      obtain ⟨A, hA, hB⟩ := hr x hx ((hflat x hx).2 hfx)
      rw [hopp] at hA hB
      refine ⟨fun k => A (if k = g then f else k), ?_, ?_⟩
      · intro k l hk hl
        exact hA _ _ (by rw [hface x hx, hk]; rfl) (by rw [hface _ (oppS x hx), hl]; rfl)
      · intro y hy e1 e2 hfy k l hk hl
        by_cases c1 : y = h
        · subst c1
          rw [hf] at hk
          rw [hg] at hl
          cases hk; cases hl
          dsimp only
          rw [if_neg hne, if_pos rfl]
        · by_cases c2 : y = S.opp h
          · subst c2
            rw [hg] at hk
            rw [hoo, hf] at hl
            cases hk; cases hl
            dsimp only
            rw [if_neg hne, if_pos rfl]
          · have hy1 := (hmem y).2 ⟨hy, c1, c2⟩
            exact hB y hy1 e1 e2 ((hflat y hy1).2 hfy) _ _ (by rw [hface y hy1, hk]; rfl) (by rw [hface _ (oppS y hy1), hl]; rfl)
    -- the edge that goes: what is behind the other flat edges of the second facet
    have go : ∃ A, CutAt S h A := by
      let B : Nat → Prop := fun k => k = g ∨ ∃ x ∈ S1.hs, FlatEdge S x ∧ S.face x = some g ∧ ∃ A, CutAt S1 x A ∧ ¬ A (if k = g then f else k)
      have pass : ∀ y ∈ S1.hs, FlatEdge S y → ∀ k l, S.face y = some k → S.face (S.opp y) = some l → B k → B l := by
        rintro y hy hfy k l hk hl (rfl | ⟨x, hx, hfx, hxg, A, hA, hnA⟩)
        · obtain ⟨A, hA⟩ := hr y hy ((hflat y hy).2 hfy)
          refine Or.inr ⟨y, hy, hfy, hk, A, hA, ?_⟩
          exact (hA.1 _ _ (by rw [hface y hy, hk]; rfl) (by rw [hopp, hface _ (oppS y hy), hl]; rfl)).2
        · by_cases c1 : y = x
          · subst c1
            rw [hk] at hxg
            cases hxg
            refine Or.inr ⟨y, hy, hfy, hk, A, hA, ?_⟩
            exact (hA.1 _ _ (by rw [hface y hy, hk]; rfl) (by rw [hopp, hface _ (oppS y hy), hl]; rfl)).2
          · by_cases c2 : y = S.opp x
            · subst c2
              rw [V.opp_opp x ((hmem x).1 hx).1, hxg] at hl
              cases hl
              exact Or.inl rfl
            · have := hA.2 y hy c1 (by rw [hopp]; exact c2) ((hflat y hy).2 hfy) _ _ (by rw [hface y hy, hk]; rfl) (by rw [hopp, hface _ (oppS y hy), hl]; rfl)
              exact Or.inr ⟨x, hx, hfx, hxg, A, hA, fun hl' => hnA (this.2 hl')⟩
      refine ⟨fun k => ¬ B k, ?_, ?_⟩
      · intro k l hk hl
        rw [hf] at hk
        rw [hg] at hl
        cases hk; cases hl
        refine ⟨?_, fun hn => hn (Or.inl rfl)⟩
        rintro (e | ⟨x, hx, hfx, hxg, A, hA, hnA⟩)
        · exact hne e
        · rw [if_neg hne] at hnA
          obtain ⟨a, b, ha, hb, -⟩ := hfx
          rw [hxg] at ha
          cases ha
          have := (hA.1 _ _ (by rw [hface x hx, hxg]; rfl) (by rw [hopp, hface _ (oppS x hx), hb]; rfl)).1
          dsimp only at this
          rw [if_pos rfl] at this
          exact hnA this
      · intro y hy e1 e2 hfy k l hk hl
        have hy1 := (hmem y).2 ⟨hy, e1, e2⟩
        have p1 := pass y hy1 hfy k l hk hl
        have p2 := pass _ (oppS y hy1) (flat_opp V hy hfy) l k hl (by rw [V.opp_opp y hy]; exact hk)
        exact not_congr ⟨p1, p2⟩
    intro x hx hfx
    by_cases e1 : x = h
    · subst e1; exact go
    · by_cases e2 : x = S.opp h
      · subst e2
        obtain ⟨A, hA, hB⟩ := go
        refine ⟨fun k => ¬ A k, ?_, ?_⟩
        · intro k l hk hl
          rw [hoo] at hl
          have := hA l k hl hk
          exact ⟨this.2, fun hn => hn this.1⟩
        · intro y hy c1 c2 hfy k l hk hl
          rw [hoo] at c2
          exact not_congr (hB y hy c2 c1 hfy k l hk hl)
      · exact stay x ((hmem x).2 ⟨hx, e1, e2⟩) hfx
  · intro hr x hx hfx
    obtain ⟨hxS, n1, n2⟩ := (hmem x).1 hx
    obtain ⟨A, hA, hB⟩ := hr x hxS ((hflat x hx).1 hfx)
    have same : A f ↔ A g := hB h hh (fun e => n1 e.symm) (fun e => n2 ((flip x h hxS hh).1 e.symm)) fl f g hf hg
    have ren : ∀ k, A (if k = g then f else k) ↔ A k := by
      intro k
      split
      · rename_i e; rw [e]; exact same
      · exact Iff.rfl
    refine ⟨A, ?_, ?_⟩
    · intro k l hk hl
      rw [hface x hx] at hk
      rw [hopp, hface _ (oppS x hx)] at hl
      obtain ⟨k', hk', rfl⟩ := Option.map_eq_some_iff.1 hk
      obtain ⟨l', hl', rfl⟩ := Option.map_eq_some_iff.1 hl
      rw [ren, ren]
      exact hA k' l' hk' hl'
    · intro y hy e1 e2 hfy k l hk hl
      rw [hopp] at e2
      obtain ⟨hyS, -, -⟩ := (hmem y).1 hy
      rw [hface y hy] at hk
      rw [hopp, hface _ (oppS y hy)] at hl
      obtain ⟨k', hk', rfl⟩ := Option.map_eq_some_iff.1 hk
      obtain ⟨l', hl', rfl⟩ := Option.map_eq_some_iff.1 hl
      rw [ren, ren]
      exact hB y hyS e1 e2 ((hflat y hy).1 hfy) k' l' hk' hl'

theorem joins_keep (V : ValidSurf S) (hF : FlatFacets S) (hN : NoFold S) (h : Joins S S') : (BentCorners S' ↔ BentCorners S) ∧ (NoRings S' ↔ NoRings S) := by
  induction h with
  | refl S => exact ⟨Iff.rfl, Iff.rfl⟩
  | step h f g hh hf hg hne hp hj hr ih =>
    rename_i S S1 S'
    have one : Joins S S1 := .step h f g hh hf hg hne hp hj (.refl _)
    have V1 := (C59_conserves V one).1
    obtain ⟨F1, N1, -⟩ := C59_coplanar V hF hN one
    have := ih V1 F1 N1
    exact ⟨this.1.trans (bent_join V hF hN hh hf hg hp hj), this.2.trans (rings_join V hF hN hh hf hg hp hj)⟩

/-- C59: exactly when pruning works. On a surface of plane facets without folds, the loop of `prune` returns if and only if each end of a flat edge has two
edges that are not flat, and flat edges do not lead around in a ring; then what it returns has no flat edge left. In all other cases it comes to an edge that
`join_facet` may not remove. -/
theorem C59_exact (L : NormalLaw nrm) (V : ValidSurf S) (hF : FlatFacets S) (hN : NoFold S) (n : Nat) (hn : S.hs.length < n) :
    (BentCorners S ∧ NoRings S → ∃ S', Surf.pruneLoop nrm n S = .ok S' ∧ Joins S S' ∧ ValidSurf S' ∧ FlatFacets S' ∧ ∀ h ∈ S'.hs, ¬ FlatEdge S' h) ∧
    (¬ (BentCorners S ∧ NoRings S) → Surf.pruneLoop nrm n S = .ub) := by
  rcases C59_prune_partial L V n hn with ⟨S', h1, h2, h3, h4⟩ | ⟨h1, S1, h, f, g, h2, V1, h4, hh, hf, hg, hd⟩
  · have noflat : ∀ h ∈ S'.hs, ¬ FlatEdge S' h := fun h hh ⟨f, g, hf, hg, hp⟩ => h4 h hh f g hf hg hp
    refine ⟨fun _ => ⟨S', h1, h2, h3, (C59_coplanar V hF hN h2).1, noflat⟩, fun hc => ?_⟩
    exfalso
    apply hc
    have k := joins_keep V hF hN h2
    exact ⟨k.1.1 fun x hx hfx => absurd hfx (noflat x hx), k.2.1 fun x hx hfx => absurd hfx (noflat x hx)⟩
  · refine ⟨fun ⟨hb, hr⟩ => ?_, fun _ => h1⟩
    exfalso
    apply hd
    have k := joins_keep V hF hN h2
    have hb1 := k.1.2 hb
    have hr1 := k.2.2 hr
    have fl : FlatEdge S1 h := by
      rcases findJoinable_spec L V1 S1.hs (fun _ h => h) with ⟨e, -⟩ | ⟨x, hx, a, b, e, ha, hb', hab⟩
      · unfold Surf.prunable at h4
        rw [e] at h4
        cases h4
      · unfold Surf.prunable at h4
        rw [e] at h4
        cases h4
        exact ⟨a, b, ha, hb', hab⟩
    have deg : ∀ x ∈ S1.hs, FlatEdge S1 x → S1.degreeOk x = true := by
      intro x hx hfx
      obtain ⟨i, j, hij, hi, hjj⟩ := hb1 x hx hfx
      have stuck : ∀ k, (spin S1)^[k] x ∈ ({x, spin S1 x} : Set Nat) ∨ S1.degreeOk x = true := by
        by_cases hdx : S1.degreeOk x = true
        · exact fun _ => Or.inr hdx
        · have hcyc : spin S1 x = x ∨ spin S1 (spin S1 x) = x := by
            unfold Surf.degreeOk at hdx
            simp only [Bool.and_eq_true, decide_eq_true_eq, not_and_or, not_not] at hdx
            exact hdx
          intro k
          refine Or.inl ?_
          induction k with
          | zero => exact Or.inl rfl
          | succ k ih =>
            rw [Function.iterate_succ_apply']
            rcases ih with e | e
            · rw [e]; exact Or.inr rfl
            · rw [Set.mem_singleton_iff.1 e]
              rcases hcyc with c | c
              · rw [c, c]; exact Or.inl rfl
              · rw [c]; exact Or.inl rfl
      rcases stuck i with ei | ei
      · rcases stuck j with ej | ej
        · rcases ei with ei | ei
          · exact absurd hfx (by rw [ei] at hi; exact hi)
          · rcases ej with ej | ej
            · exact absurd hfx (by rw [ej] at hjj; exact hjj)
            · exact absurd (ei.trans ej.symm) hij
        · exact ej
      · exact ei
    obtain ⟨A, hA, -⟩ := hr1 h hh fl
    have := hA f g hf hg
    exact ⟨fun e => this.2 (e ▸ this.1), deg h hh fl, deg _ (V1.opp_mem h hh) (flat_opp V1 hh fl)⟩

/-! ### The hypotheses are met -/

/-- C59: a square of two triangles: the corners of the diagonal are bent (at the border), and the diagonal is no ring. -/
example : BentCorners panel ∧ NoRings panel := by
  have hN : NoFold panel := by
    rintro f g ⟨h, hh, hf, hg⟩ hp
    have : ∀ h ∈ panel.hs, ∀ f ∈ (panel.face h).toList, ∀ g ∈ (panel.face (panel.opp h)).toList, 0 < dot (facetVector panel f) (facetVector panel g) := by
      decide +kernel
    exact this h hh f (by rw [hf]; simp) g (by rw [hg]; simp)
  by_contra hc
  have := (C59_exact area_normal panel_valid (checkFlat_flat (by decide +kernel)) hN (panel.hs.length + 1) (by omega)).2 hc
  have h2 : (match Surf.pruneLoop vectorArea2 (panel.hs.length + 1) panel with | .ub => true | _ => false) = false := by decide +kernel
  rw [this] at h2
  cases h2

/-- C59: facets around a courtyard do not meet them. -/
example : ¬ (BentCorners ring ∧ NoRings ring) := by
  intro hc
  obtain ⟨hF, hN, -, hub⟩ := C59_ring_refuted
  obtain ⟨S', h, -⟩ := (C59_exact area_normal ring_valid hF hN (ring.hs.length + 1) (by omega)).1 hc
  rw [hub] at h
  cases h

end
end City.Props
