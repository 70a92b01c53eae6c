import Verif.Lemmas.Surf
/-!
Joining two facets.
-/
set_option linter.unusedSectionVars false
namespace City
open Spec
variable {K : Type} {S : Surf K}

theorem relabel_spec (nx : Nat → Nat) (stop : Nat) (F : Option Nat) : ∀ (d m x : Nat) (fc : Nat → Option Nat), d < m →
    nx^[d] x = stop → (∀ k < d, nx^[k] x ≠ stop) →
    ∃ fc', Surf.relabel nx stop F m x fc = .ok fc' ∧ (∀ k, 1 ≤ k → k ≤ d → fc' (nx^[k] x) = F) ∧
      (∀ y, (∀ k, 1 ≤ k → k ≤ d → nx^[k] x ≠ y) → fc' y = fc y) ∧ (∀ y, fc' y = F ∨ fc' y = fc y) := by
  intro d
  induction d with
  | zero =>
    intro m x fc hm hs _
    obtain ⟨m, rfl⟩ : ∃ m', m = m' + 1 := ⟨m - 1, by omega⟩
    refine ⟨fc, ?_, by intro k h1 h2; omega, fun _ _ => rfl, fun _ => Or.inr rfl⟩
    unfold Surf.relabel
    rw [if_pos (show x = stop from hs)]
  | succ d ih =>
    intro m x fc hm hs hne
    obtain ⟨m, rfl⟩ : ∃ m', m = m' + 1 := ⟨m - 1, by omega⟩
    obtain ⟨fc', h1, h2, h3, h4⟩ := ih m (nx x) (upd fc (nx x) F) (by omega) hs (fun k hk => hne (k + 1) (by omega))
    refine ⟨fc', ?_, ?_, ?_, ?_⟩
    · unfold Surf.relabel
      rw [if_neg (show x ≠ stop from hne 0 (by omega)), h1]
    · intro k hk1 hk2
      rcases Nat.lt_or_ge 1 k with hk | hk
      · obtain ⟨k, rfl⟩ : ∃ k', k = k' + 1 := ⟨k - 1, by omega⟩
        exact h2 k (by omega) (by omega)
      · have : k = 1 := by omega
        subst this
        show fc' (nx x) = F
        rcases h4 (nx x) with h | h
        · exact h
        · rw [h]; simp [upd]
    · intro y hy
      rw [h3 y fun k hk1 hk2 => hy (k + 1) (by omega) (by omega)]
      unfold upd
      rw [if_neg]
      intro he
      exact hy 1 (by omega) (by omega) he.symm
    · intro y
      rcases h4 y with h | h
      · exact Or.inl h
      · rw [h]
        unfold upd
        split
        · exact Or.inl rfl
        · exact Or.inr rfl

theorem relabel_endless (nx : Nat → Nat) (stop : Nat) (F : Option Nat) (P : Nat → Prop) (hP : ∀ y, P y → P (nx y)) (hs : ¬ P stop) :
    ∀ (m x : Nat) (fc : Nat → Option Nat), P x → Surf.relabel nx stop F m x fc = .ub := by
  intro m
  induction m with
  | zero => intro x fc _; rfl
  | succ m ih =>
    intro x fc hx
    unfold Surf.relabel
    rw [if_neg (by rintro rfl; exact hs hx)]
    exact ih _ _ (hP x hx)

/-- The links after the edge of `h` was taken out. -/
theorem tips (V : ValidSurf S) {h : Nat} (hh : h ∈ S.hs) (h1 : S.next h ≠ S.opp h) (h2 : S.next (S.opp h) ≠ h) :
    ((S.removeTip (S.prev h)).removeTip (S.prev (S.opp h))).next = upd (upd S.next (S.prev h) (S.next (S.opp h))) (S.prev (S.opp h)) (S.next h) ∧
    ((S.removeTip (S.prev h)).removeTip (S.prev (S.opp h))).prev = upd (upd S.prev (S.next (S.opp h)) (S.prev h)) (S.next h) (S.prev (S.opp h)) := by
  have ho := V.opp_mem h hh
  have hab : S.prev (S.opp h) ≠ S.prev h := by
    intro he
    apply V.opp_ne h hh
    rw [← V.next_prev _ ho, he, V.next_prev _ hh]
  have hah : h ≠ S.prev h := by
    intro he
    apply V.next_ne h hh
    conv_lhs => rw [he]
    exact V.next_prev h hh
  have e1 : S.next (S.opp (S.next (S.prev h))) = S.next (S.opp h) := by rw [V.next_prev h hh]
  have e2 : (S.removeTip (S.prev h)).next (S.prev (S.opp h)) = S.opp h := by
    show upd S.next _ _ (S.prev (S.opp h)) = _
    unfold upd
    rw [if_neg hab, V.next_prev _ ho]
  have e3 : (S.removeTip (S.prev h)).next h = S.next h := by
    show upd S.next _ _ h = _
    unfold upd
    rw [if_neg hah]
  have e4 : (S.removeTip (S.prev h)).next ((S.removeTip (S.prev h)).opp ((S.removeTip (S.prev h)).next (S.prev (S.opp h)))) = S.next h := by
    rw [e2]
    show (S.removeTip (S.prev h)).next (S.opp (S.opp h)) = _
    rw [V.opp_opp h hh, e3]
  constructor
  · show upd (upd S.next (S.prev h) (S.next (S.opp (S.next (S.prev h))))) _ _ = _
    rw [e4, e1]
  · show upd (upd S.prev (S.next (S.opp (S.next (S.prev h)))) (S.prev h)) _ _ = _
    rw [e4, e1]

theorem iter_eq_of_avoid (nx nx' : Nat → Nat) (x : Nat) : ∀ (n : Nat), (∀ k < n, nx' (nx^[k] x) = nx (nx^[k] x)) → nx'^[n] x = nx^[n] x
  | 0, _ => rfl
  | n + 1, h => by
    rw [Function.iterate_succ_apply', Function.iterate_succ_apply', iter_eq_of_avoid nx nx' x n fun k hk => h k (by omega), h n (by omega)]

/-- The merged facet: from the half-edge before `h`, through the second facet, then through the first. -/
theorem merged_walk (V : ValidSurf S) {h f g : Nat} (hh : h ∈ S.hs) (hf : S.face h = some f) (hg : S.face (S.opp h) = some g) (hne : f ≠ g) :
    ∃ ng nf, 1 < ng ∧ 1 < nf ∧ ng ≤ S.hs.length ∧ S.next^[ng] (S.opp h) = S.opp h ∧ S.next^[nf] h = h ∧
      (∀ k, 0 < k → k < ng → S.next^[k] (S.opp h) ≠ S.opp h) ∧ (∀ k, 0 < k → k < nf → S.next^[k] h ≠ h) ∧
      S.next^[ng - 1] (S.opp h) = S.prev (S.opp h) ∧ S.next^[nf - 1] h = S.prev h ∧
      (∀ k, 1 ≤ k → k ≤ ng - 1 → (upd (upd S.next (S.prev h) (S.next (S.opp h))) (S.prev (S.opp h)) (S.next h))^[k] (S.prev h) = S.next^[k] (S.opp h)) ∧
      ∀ k, 1 ≤ k → k ≤ nf - 1 →
        (upd (upd S.next (S.prev h) (S.next (S.opp h))) (S.prev (S.opp h)) (S.next h))^[ng - 1 + k] (S.prev h) = S.next^[k] h := by
  have ho := V.opp_mem h hh
  obtain ⟨ng, g0, g1, g2, g3⟩ := V.period ho
  obtain ⟨nf, f0, f1, f2, f3⟩ := V.period hh
  have ng1 : 1 < ng := by
    rcases Nat.lt_or_ge 1 ng with h | h
    · exact h
    · have : ng = 1 := by omega
      subst this
      exact absurd g2 (V.next_ne _ ho)
  have nf1 : 1 < nf := by
    rcases Nat.lt_or_ge 1 nf with h | h
    · exact h
    · have : nf = 1 := by omega
      subst this
      exact absurd f2 (V.next_ne _ hh)
  have gb : S.next^[ng - 1] (S.opp h) = S.prev (S.opp h) := by
    apply V.next_inj (V.iter_mem ho _) (V.prev_mem _ ho)
    rw [← Function.iterate_succ_apply' S.next, V.next_prev _ ho, show (ng - 1).succ = ng by omega, g2]
  have fa : S.next^[nf - 1] h = S.prev h := by
    apply V.next_inj (V.iter_mem hh _) (V.prev_mem _ hh)
    rw [← Function.iterate_succ_apply' S.next, V.next_prev _ hh, show (nf - 1).succ = nf by omega, f2]
  have ga : ∀ k, S.next^[k] (S.opp h) ≠ S.prev h := by
    intro k he
    have h1 := V.face_iter ho k
    rw [he, hg] at h1
    have h2 := V.face_next _ (V.prev_mem h hh)
    rw [V.next_prev h hh, hf, h1] at h2
    exact hne (Option.some.inj h2)
  have fb : ∀ k, S.next^[k] h ≠ S.prev (S.opp h) := by
    intro k he
    have h1 := V.face_iter hh k
    rw [he, hf] at h1
    have h2 := V.face_next _ (V.prev_mem _ ho)
    rw [V.next_prev _ ho, hg, h1] at h2
    exact hne (Option.some.inj h2).symm
  have w1 : ∀ k, 1 ≤ k → k ≤ ng - 1 →
      (upd (upd S.next (S.prev h) (S.next (S.opp h))) (S.prev (S.opp h)) (S.next h))^[k] (S.prev h) = S.next^[k] (S.opp h) := by
    intro k
    induction k with
    | zero => intro h; omega
    | succ k ih =>
      intro _ hk
      rw [Function.iterate_succ_apply', Function.iterate_succ_apply' S.next]
      rcases Nat.eq_zero_or_pos k with h0 | h0
      · subst h0
        show upd _ _ _ (S.prev h) = S.next (S.opp h)
        unfold upd
        rw [if_neg, if_pos rfl]
        intro he
        exact ga (ng - 1) (by rw [gb, he])
      · rw [ih h0 (by omega)]
        unfold upd
        rw [if_neg, if_neg (ga k)]
        intro he
        have := V.next_prev _ ho
        rw [← he, ← Function.iterate_succ_apply' S.next] at this
        exact g3 (k + 1) (by omega) (by omega) this
  refine ⟨ng, nf, ng1, nf1, g1, g2, f2, g3, f3, gb, fa, w1, ?_⟩
  intro k
  induction k with
  | zero => intro h; omega
  | succ k ih =>
    intro _ hk
    rw [← Nat.add_assoc, Function.iterate_succ_apply', Function.iterate_succ_apply' S.next]
    rcases Nat.eq_zero_or_pos k with h0 | h0
    · subst h0
      rw [Nat.add_zero, w1 (ng - 1) (by omega) (by omega), gb]
      unfold upd
      rw [if_pos rfl]
      rfl
    · rw [ih h0 (by omega)]
      unfold upd
      rw [if_neg (fb k), if_neg]
      intro he
      have := V.next_prev _ hh
      rw [← he, ← Function.iterate_succ_apply' S.next] at this
      exact f3 (k + 1) (by omega) (by omega) this

/-- Joining two different facets along an edge whose ends have at least three edges: the result is a valid surface, in which the half-edges of the
second facet belong to the first. -/
theorem join_ok (V : ValidSurf S) {h f g : Nat} (hh : h ∈ S.hs) (hf : S.face h = some f) (hg : S.face (S.opp h) = some g) (hne : f ≠ g)
    (d1 : S.degreeOk h = true) (d2 : S.degreeOk (S.opp h) = true) :
    ∃ S', S.joinFacet h = .ok S' ∧ ValidSurf S' ∧ S'.hs = (S.hs.filter fun k => decide (k ≠ h ∧ k ≠ S.opp h)) ∧
      S'.fs = (S.fs.filter fun k => decide (k ≠ g)) ∧ S'.vs = S.vs ∧ S'.vert = S.vert ∧ S'.opp = S.opp ∧ S'.pt = S.pt ∧ S'.fid = S.fid ∧
      ∀ x ∈ S'.hs, S'.face x = if S.face x = some g then some f else S.face x := by
  have ho := V.opp_mem h hh
  have hoo := V.opp_opp h hh
  have n1 : S.next h ≠ S.opp h := by
    intro he
    have := V.face_next h hh
    rw [he, hg, hf] at this
    exact hne (Option.some.inj this).symm
  have n2 : S.next (S.opp h) ≠ h := by
    intro he
    have := V.face_next _ ho
    rw [he, hf, hg] at this
    exact hne (Option.some.inj this)
  obtain ⟨t1, t2⟩ := tips V hh n1 n2
  obtain ⟨ng, nf, ng1, nf1, gl, g2, f2, g3, f3, gb, fa, w1, w2⟩ := merged_walk V hh hf hg hne
  have fa' : S.face (S.prev h) = some f := by
    have := V.face_next _ (V.prev_mem h hh)
    rw [V.next_prev h hh, hf] at this
    exact this.symm
  have fb' : S.face (S.prev (S.opp h)) = some g := by
    have := V.face_next _ (V.prev_mem _ ho)
    rw [V.next_prev _ ho, hg] at this
    exact this.symm
  have hmem : ∀ x, (x ∈ S.hs.filter fun k => decide (k ≠ h ∧ k ≠ S.opp h)) ↔ x ∈ S.hs ∧ x ≠ h ∧ x ≠ S.opp h := by
    intro x; rw [List.mem_filter, decide_eq_true_iff]
  -- the half-edges of g other than the opposite of h
  have gall : ∀ x ∈ S.hs, S.face x = some g → x ≠ S.opp h → ∃ k, 1 ≤ k ∧ k ≤ ng - 1 ∧ S.next^[k] (S.opp h) = x := by
    intro x hx hxg hxo
    have hgm := V.face_mem _ ho g hg
    obtain ⟨m1, e1⟩ := V.one_cycle g hgm x hx hxg
    obtain ⟨l, -, -, -, l3, -⟩ := V.cycle ho (le_refl _)
    have hmem' : ∃ n, S.next^[n] (S.opp h) = x := by
      obtain ⟨m2, e2⟩ := V.one_cycle g hgm _ ho hg
      obtain ⟨p, p0, -, pp, -⟩ := V.period (V.start_mem g hgm)
      have hmul : ∀ q, S.next^[p * q] (S.start g) = S.start g := by
        intro q
        induction q with
        | zero => rfl
        | succ q ih => rw [Nat.mul_succ, Function.iterate_add_apply, pp, ih]
      refine ⟨m1 + (p * m2 - m2), ?_⟩
      rw [← e2, ← Function.iterate_add_apply]
      have : m1 + (p * m2 - m2) + m2 = m1 + p * m2 := by
        have : m2 ≤ p * m2 := Nat.le_mul_of_pos_left _ p0
        omega
      rw [this, Function.iterate_add_apply, hmul, e1]
    obtain ⟨n, hn⟩ := hmem'
    have hmul : ∀ q, S.next^[ng * q] (S.opp h) = S.opp h := by
      intro q
      induction q with
      | zero => rfl
      | succ q ih => rw [Nat.mul_succ, Function.iterate_add_apply, g2, ih]
    have hmod : S.next^[n % ng] (S.opp h) = x := by
      rw [← hn]
      conv_rhs => rw [← Nat.mod_add_div n ng, Function.iterate_add_apply, hmul]
    refine ⟨n % ng, ?_, ?_, hmod⟩
    · rcases Nat.eq_zero_or_pos (n % ng) with h0 | h0
      · rw [h0] at hmod; exact absurd hmod.symm hxo
      · exact h0
    · have := Nat.mod_lt n (show ng > 0 by omega); omega
  have fall : ∀ x ∈ S.hs, S.face x = some f → x ≠ h → ∃ k, 1 ≤ k ∧ k ≤ nf - 1 ∧ S.next^[k] h = x := by
    intro x hx hxf hxh
    have hfm := V.face_mem _ hh f hf
    obtain ⟨m1, e1⟩ := V.one_cycle f hfm x hx hxf
    have hmem' : ∃ n, S.next^[n] h = x := by
      obtain ⟨m2, e2⟩ := V.one_cycle f hfm _ hh hf
      obtain ⟨p, p0, -, pp, -⟩ := V.period (V.start_mem f hfm)
      have hmul : ∀ q, S.next^[p * q] (S.start f) = S.start f := by
        intro q
        induction q with
        | zero => rfl
        | succ q ih => rw [Nat.mul_succ, Function.iterate_add_apply, pp, ih]
      refine ⟨m1 + (p * m2 - m2), ?_⟩
      rw [← e2, ← Function.iterate_add_apply]
      have : m1 + (p * m2 - m2) + m2 = m1 + p * m2 := by
        have : m2 ≤ p * m2 := Nat.le_mul_of_pos_left _ p0
        omega
      rw [this, Function.iterate_add_apply, hmul, e1]
    obtain ⟨n, hn⟩ := hmem'
    have hmul : ∀ q, S.next^[nf * q] h = h := by
      intro q
      induction q with
      | zero => rfl
      | succ q ih => rw [Nat.mul_succ, Function.iterate_add_apply, f2, ih]
    have hmod : S.next^[n % nf] h = x := by
      rw [← hn]
      conv_rhs => rw [← Nat.mod_add_div n nf, Function.iterate_add_apply, hmul]
    refine ⟨n % nf, ?_, ?_, hmod⟩
    · rcases Nat.eq_zero_or_pos (n % nf) with h0 | h0
      · rw [h0] at hmod; exact absurd hmod.symm hxh
      · exact h0
    · have := Nat.mod_lt n (show nf > 0 by omega); omega
  obtain ⟨fc, r1, r2, r3, r4⟩ := relabel_spec (upd (upd S.next (S.prev h) (S.next (S.opp h))) (S.prev (S.opp h)) (S.next h)) (S.prev (S.opp h))
    (some f) (ng - 1) (S.hs.length + 1) (S.prev h) S.face (by omega) (by rw [w1 (ng - 1) (by omega) (by omega), gb]) (by
      intro k hk
      rcases Nat.eq_zero_or_pos k with h0 | h0
      · subst h0
        intro he
        have he' : S.prev h = S.prev (S.opp h) := he
        rw [he', fb'] at fa'
        exact hne (Option.some.inj fa').symm
      · rw [w1 k h0 (by omega)]
        intro he
        have := V.next_prev _ ho
        rw [← he, ← Function.iterate_succ_apply' S.next] at this
        exact g3 (k + 1) (by omega) (by omega) this)
  have hface : ∀ x ∈ S.hs, x ≠ S.opp h → fc x = if S.face x = some g then some f else S.face x := by
    intro x hx hxo
    split
    · rename_i hxg
      obtain ⟨k, k1, k2, rfl⟩ := gall x hx hxg hxo
      rw [← w1 k k1 k2]
      exact r2 k k1 k2
    · rename_i hxg
      apply r3
      intro k k1 k2 he
      apply hxg
      rw [w1 k k1 k2] at he
      rw [← he, V.face_iter ho, hg]
  have hgf : f ∈ S.fs.filter fun k => decide (k ≠ g) := by
    rw [List.mem_filter, decide_eq_true_iff]
    exact ⟨V.face_mem _ hh f hf, hne⟩
  have hfmem : ∀ x, (x ∈ S.fs.filter fun k => decide (k ≠ g)) ↔ x ∈ S.fs ∧ x ≠ g := by
    intro x; rw [List.mem_filter, decide_eq_true_iff]
  -- facts about the four places
  have ab : S.prev h ≠ S.prev (S.opp h) := by
    intro he
    rw [he, fb'] at fa'
    exact hne (Option.some.inj fa').symm
  have ah : S.prev h ≠ h := by
    intro he
    apply V.next_ne h hh
    conv_lhs => rw [← he]
    exact V.next_prev h hh
  have ao : S.prev h ≠ S.opp h := by
    intro he
    apply n2
    rw [← he]
    exact V.next_prev h hh
  have bh : S.prev (S.opp h) ≠ h := by
    intro he
    apply n1
    conv_lhs => rw [← he]
    exact V.next_prev _ ho
  have bo : S.prev (S.opp h) ≠ S.opp h := by
    intro he
    apply V.next_ne _ ho
    conv_lhs => rw [← he]
    exact V.next_prev _ ho
  have hnn : S.next h ≠ S.next (S.opp h) := fun he => V.opp_ne h hh (V.next_inj ho hh he.symm)
  have nextne : ∀ x ∈ S.hs, x ≠ S.prev h → x ≠ S.prev (S.opp h) → S.next x ≠ h ∧ S.next x ≠ S.opp h := by
    intro x hx hxa hxb
    constructor
    · intro he; exact hxa (by rw [← he, V.prev_next x hx])
    · intro he; exact hxb (by rw [← he, V.prev_next x hx])
  have prevne : ∀ x ∈ S.hs, x ≠ S.next h → x ≠ S.next (S.opp h) → S.prev x ≠ h ∧ S.prev x ≠ S.opp h := by
    intro x hx hxa hxb
    constructor
    · intro he; exact hxa (by rw [← he, V.next_prev x hx])
    · intro he; exact hxb (by rw [← he, V.next_prev x hx])
  -- the new links
  have na : upd (upd S.next (S.prev h) (S.next (S.opp h))) (S.prev (S.opp h)) (S.next h) (S.prev h) = S.next (S.opp h) := by
    unfold upd; rw [if_neg ab, if_pos rfl]
  have nb : upd (upd S.next (S.prev h) (S.next (S.opp h))) (S.prev (S.opp h)) (S.next h) (S.prev (S.opp h)) = S.next h := by
    unfold upd; rw [if_pos rfl]
  have nx : ∀ x, x ≠ S.prev h → x ≠ S.prev (S.opp h) →
      upd (upd S.next (S.prev h) (S.next (S.opp h))) (S.prev (S.opp h)) (S.next h) x = S.next x := by
    intro x h1 h2; unfold upd; rw [if_neg h2, if_neg h1]
  have pa : upd (upd S.prev (S.next (S.opp h)) (S.prev h)) (S.next h) (S.prev (S.opp h)) (S.next (S.opp h)) = S.prev h := by
    unfold upd; rw [if_neg hnn.symm, if_pos rfl]
  have pb : upd (upd S.prev (S.next (S.opp h)) (S.prev h)) (S.next h) (S.prev (S.opp h)) (S.next h) = S.prev (S.opp h) := by
    unfold upd; rw [if_pos rfl]
  have px : ∀ x, x ≠ S.next h → x ≠ S.next (S.opp h) →
      upd (upd S.prev (S.next (S.opp h)) (S.prev h)) (S.next h) (S.prev (S.opp h)) x = S.prev x := by
    intro x h1 h2; unfold upd; rw [if_neg h1, if_neg h2]
  have facef : ∀ x ∈ S.hs, S.face x = some g → x ≠ S.opp h → fc x = some f := by
    intro x hx hxg hxo; rw [hface x hx hxo, if_pos hxg]
  have faceo : ∀ x ∈ S.hs, S.face x ≠ some g → x ≠ S.opp h → fc x = S.face x := by
    intro x hx hxg hxo; rw [hface x hx hxo, if_neg hxg]
  refine ⟨⟨S.hs.filter fun k => decide (k ≠ h ∧ k ≠ S.opp h), S.fs.filter fun k => decide (k ≠ g), S.vs,
    upd (upd S.next (S.prev h) (S.next (S.opp h))) (S.prev (S.opp h)) (S.next h),
    upd (upd S.prev (S.next (S.opp h)) (S.prev h)) (S.next h) (S.prev (S.opp h)), S.opp, S.vert, fc, upd S.start f (S.prev h), S.fid, S.pt⟩,
    ?_, ?_, rfl, rfl, rfl, rfl, rfl, rfl, rfl, ?_⟩
  · unfold Surf.joinFacet
    rw [if_neg (by simp [d1, d2]), t1, fa', fb', r1, Out.ok_bind]
    show Out.ok (Surf.mk _ _ _ _ _ _ _ _ _ _ _) = _
    rw [t1, t2]
    rfl
  · constructor
    · exact V.nodup.filter _
    · exact V.fnodup.filter _
    · intro x hx
      rw [hmem] at hx ⊢
      obtain ⟨hx, hxh, hxo⟩ := hx
      show upd (upd S.next (S.prev h) (S.next (S.opp h))) (S.prev (S.opp h)) (S.next h) x ∈ S.hs ∧ _
      by_cases e1 : x = S.prev h
      · subst e1; dsimp only; rw [na]; exact ⟨V.next_mem _ ho, n2, V.next_ne _ ho⟩
      · by_cases e2 : x = S.prev (S.opp h)
        · subst e2; dsimp only; rw [nb]; exact ⟨V.next_mem _ hh, V.next_ne _ hh, n1⟩
        · dsimp only; rw [nx x e1 e2]; exact ⟨V.next_mem _ hx, nextne x hx e1 e2⟩
    · intro x hx
      rw [hmem] at hx ⊢
      obtain ⟨hx, hxh, hxo⟩ := hx
      show upd (upd S.prev (S.next (S.opp h)) (S.prev h)) (S.next h) (S.prev (S.opp h)) x ∈ S.hs ∧ _
      by_cases e1 : x = S.next h
      · subst e1; dsimp only; rw [pb]; exact ⟨V.prev_mem _ ho, bh, bo⟩
      · by_cases e2 : x = S.next (S.opp h)
        · subst e2; dsimp only; rw [pa]; exact ⟨V.prev_mem _ hh, ah, ao⟩
        · dsimp only; rw [px x e1 e2]; exact ⟨V.prev_mem _ hx, prevne x hx e1 e2⟩
    · intro x hx
      rw [hmem] at hx ⊢
      obtain ⟨hx, hxh, hxo⟩ := hx
      refine ⟨V.opp_mem x hx, ?_, ?_⟩
      · intro he; exact hxo (by rw [← he]; exact (V.opp_opp x hx).symm)
      · intro he; exact hxh (by rw [← V.opp_opp x hx]; show S.opp (S.opp x) = h; rw [show S.opp x = S.opp h from he, hoo])
    · intro x hx
      rw [hmem] at hx
      exact V.vert_mem x hx.1
    · intro x hx
      rw [hmem] at hx
      obtain ⟨hx, hxh, hxo⟩ := hx
      dsimp only
      by_cases e1 : x = S.prev h
      · subst e1; rw [na, pa]
      · by_cases e2 : x = S.prev (S.opp h)
        · subst e2; rw [nb, pb]
        · have := nextne x hx e1 e2
          rw [nx x e1 e2, px (S.next x) (fun he => hxh (V.next_inj hx hh he)) (fun he => hxo (V.next_inj hx ho he)), V.prev_next x hx]
    · intro x hx
      rw [hmem] at hx
      obtain ⟨hx, hxh, hxo⟩ := hx
      dsimp only
      by_cases e1 : x = S.next h
      · subst e1; rw [pb, nb]
      · by_cases e2 : x = S.next (S.opp h)
        · subst e2; rw [pa, na]
        · rw [px x e1 e2, nx (S.prev x) (fun he => hxh (by rw [← V.next_prev x hx, he, V.next_prev h hh]))
            (fun he => hxo (by rw [← V.next_prev x hx, he, V.next_prev _ ho])), V.next_prev x hx]
    · intro x hx
      rw [hmem] at hx
      exact V.opp_opp x hx.1
    · intro x hx
      rw [hmem] at hx
      exact V.opp_ne x hx.1
    · intro x hx
      rw [hmem] at hx
      obtain ⟨hx, hxh, hxo⟩ := hx
      dsimp only
      by_cases e1 : x = S.prev h
      · subst e1; rw [na]
        intro he
        have := V.face_next _ ho
        rw [he, fa', hg] at this
        exact hne (Option.some.inj this)
      · by_cases e2 : x = S.prev (S.opp h)
        · subst e2; rw [nb]
          intro he
          have := V.face_next _ hh
          rw [he, fb', hf] at this
          exact hne (Option.some.inj this).symm
        · rw [nx x e1 e2]; exact V.next_ne x hx
    · intro x hx
      rw [hmem] at hx
      obtain ⟨hx, hxh, hxo⟩ := hx
      dsimp only
      have fnh : S.face (S.next h) = some f := by rw [V.face_next h hh, hf]
      have fno : S.face (S.next (S.opp h)) = some g := by rw [V.face_next _ ho, hg]
      by_cases e1 : x = S.prev h
      · subst e1; rw [na, nx]
        · intro he
          have := V.face_next _ (V.next_mem _ ho)
          rw [he, fa', fno] at this
          exact hne (Option.some.inj this)
        · intro he
          rw [he, fa'] at fno
          exact hne (Option.some.inj fno)
        · intro he
          apply V.two_ne _ ho
          rw [he, V.next_prev _ ho]
      · by_cases e2 : x = S.prev (S.opp h)
        · subst e2; rw [nb, nx]
          · intro he
            have := V.face_next _ (V.next_mem _ hh)
            rw [he, fb', fnh] at this
            exact hne (Option.some.inj this).symm
          · intro he
            apply V.two_ne _ hh
            rw [he, V.next_prev _ hh]
          · intro he
            rw [he, fb'] at fnh
            exact hne (Option.some.inj fnh).symm
        · rw [nx x e1 e2]
          by_cases e3 : S.next x = S.prev h
          · rw [e3, na]
            intro he
            have := V.face_next x hx
            rw [e3, fa', ← he, fno] at this
            exact hne (Option.some.inj this)
          · by_cases e4 : S.next x = S.prev (S.opp h)
            · rw [e4, nb]
              intro he
              have := V.face_next x hx
              rw [e4, fb', ← he, fnh] at this
              exact hne (Option.some.inj this).symm
            · rw [nx _ e3 e4]; exact V.two_ne x hx
    · intro x hx
      rw [hmem] at hx
      exact V.vert_ne x hx.1
    · intro x hx
      rw [hmem] at hx
      obtain ⟨hx, hxh, hxo⟩ := hx
      dsimp only
      by_cases e1 : x = S.prev h
      · subst e1; rw [na, V.turn _ ho, ← V.turn _ (V.prev_mem h hh), V.next_prev h hh]
      · by_cases e2 : x = S.prev (S.opp h)
        · subst e2; rw [nb, V.turn _ hh, ← V.turn _ (V.prev_mem _ ho), V.next_prev _ ho, hoo]
        · rw [nx x e1 e2]; exact V.turn x hx
    · intro x hx f' hf'
      rw [hmem] at hx
      obtain ⟨hx, hxh, hxo⟩ := hx
      rw [hfmem]
      have hf'' : fc x = some f' := hf'
      by_cases hxg : S.face x = some g
      · rw [facef x hx hxg hxo] at hf''
        cases hf''
        exact ⟨V.face_mem _ hh f hf, hne⟩
      · rw [faceo x hx hxg hxo] at hf''
        exact ⟨V.face_mem x hx f' hf'', by rintro rfl; exact hxg hf''⟩
    · intro x hx
      rw [hmem] at hx
      obtain ⟨hx, hxh, hxo⟩ := hx
      dsimp only
      by_cases e1 : x = S.prev h
      · subst e1
        rw [na, facef _ (V.next_mem _ ho) (by rw [V.face_next _ ho, hg]) (V.next_ne _ ho),
          faceo _ (V.prev_mem _ hh) (by rw [fa']; intro he; exact hne (Option.some.inj he)) ao, fa']
      · by_cases e2 : x = S.prev (S.opp h)
        · subst e2
          rw [nb, facef _ (V.prev_mem _ ho) fb' bo,
            faceo _ (V.next_mem _ hh) (by rw [V.face_next _ hh, hf]; intro he; exact hne (Option.some.inj he)) n1, V.face_next _ hh, hf]
        · rw [nx x e1 e2, hface _ (V.next_mem x hx) (nextne x hx e1 e2).2, hface x hx hxo, V.face_next x hx]
    · intro f' hf'
      rw [hfmem] at hf'
      rw [hmem]
      show upd S.start f (S.prev h) f' ∈ S.hs ∧ upd S.start f (S.prev h) f' ≠ h ∧ upd S.start f (S.prev h) f' ≠ S.opp h
      unfold upd
      by_cases e : f' = f
      · rw [if_pos e]; exact ⟨V.prev_mem h hh, ah, ao⟩
      · rw [if_neg e]
        refine ⟨V.start_mem f' hf'.1, ?_, ?_⟩
        · intro he
          have := V.face_start f' hf'.1
          rw [he, hf] at this
          exact e (Option.some.inj this).symm
        · intro he
          have := V.face_start f' hf'.1
          rw [he, hg] at this
          exact hf'.2 (Option.some.inj this).symm
    · intro f' hf'
      rw [hfmem] at hf'
      show fc (upd S.start f (S.prev h) f') = some f'
      unfold upd
      by_cases e : f' = f
      · rw [if_pos e, e, faceo _ (V.prev_mem _ hh) (by rw [fa']; intro he; exact hne (Option.some.inj he)) ao, fa']
      · rw [if_neg e, faceo _ (V.start_mem f' hf'.1) (by rw [V.face_start f' hf'.1]; intro he; exact hf'.2 (Option.some.inj he)),
          V.face_start f' hf'.1]
        intro he
        have := V.face_start f' hf'.1
        rw [he, hg] at this
        exact hf'.2 (Option.some.inj this).symm
    · intro f' hf' x hx hxf'
      rw [hfmem] at hf'
      rw [hmem] at hx
      obtain ⟨hx, hxh, hxo⟩ := hx
      have hxf : fc x = some f' := hxf'
      show ∃ n, (upd (upd S.next (S.prev h) (S.next (S.opp h))) (S.prev (S.opp h)) (S.next h))^[n] (upd S.start f (S.prev h) f') = x
      by_cases e : f' = f
      · subst e
        rw [show upd S.start f' (S.prev h) f' = S.prev h by unfold upd; rw [if_pos rfl]]
        by_cases hxg : S.face x = some g
        · obtain ⟨k, k1, k2, rfl⟩ := gall x hx hxg hxo
          exact ⟨k, w1 k k1 k2⟩
        · rw [faceo x hx hxg hxo] at hxf
          obtain ⟨k, k1, k2, rfl⟩ := fall x hx hxf hxh
          exact ⟨ng - 1 + k, w2 k k1 k2⟩
      · rw [show upd S.start f (S.prev h) f' = S.start f' by unfold upd; rw [if_neg e]]
        have hxg : S.face x ≠ some g := by
          intro hxg
          rw [facef x hx hxg hxo] at hxf
          exact e (Option.some.inj hxf).symm
        rw [faceo x hx hxg hxo] at hxf
        obtain ⟨n, hn⟩ := V.one_cycle f' hf'.1 x hx hxf
        refine ⟨n, ?_⟩
        rw [iter_eq_of_avoid S.next, hn]
        intro k _
        have hfk := V.face_iter (V.start_mem f' hf'.1) k
        rw [V.face_start f' hf'.1] at hfk
        apply nx
        · intro he; rw [he, fa'] at hfk; exact e (Option.some.inj hfk).symm
        · intro he; rw [he, fb'] at hfk; exact hf'.2 (Option.some.inj hfk).symm
  · intro x hx
    rw [hmem] at hx
    exact hface x hx.1 hx.2.2

/-- Joining a facet with itself does not end. -/
theorem join_same (V : ValidSurf S) {h f : Nat} (hh : h ∈ S.hs) (hf : S.face h = some f) (hg : S.face (S.opp h) = some f) :
    S.joinFacet h = .ub := by
  unfold Surf.joinFacet
  split
  · rfl
  · rename_i hd
    simp only [Bool.not_eq_true', Bool.not_eq_false, Bool.and_eq_true] at hd
    have ho := V.opp_mem h hh
    have hoo := V.opp_opp h hh
    have n1 : S.next h ≠ S.opp h := by
      intro he
      have := hd.1
      unfold Surf.degreeOk at this
      rw [he, hoo] at this
      simp at this
    have n2 : S.next (S.opp h) ≠ h := by
      intro he
      have := hd.2
      unfold Surf.degreeOk at this
      rw [he] at this
      simp at this
    obtain ⟨t1, t2⟩ := tips V hh n1 n2
    obtain ⟨n, n0, nl, np, nm⟩ := V.period hh
    have hmul : ∀ q, S.next^[n * q] h = h := by
      intro q
      induction q with
      | zero => rfl
      | succ q ih => rw [Nat.mul_succ, Function.iterate_add_apply, np, ih]
    obtain ⟨q, q1, q2⟩ : ∃ q, q < n ∧ S.next^[q] h = S.opp h := by
      have hfm := V.face_mem _ hh f hf
      obtain ⟨m1, e1⟩ := V.one_cycle f hfm _ ho hg
      obtain ⟨m2, e2⟩ := V.one_cycle f hfm _ hh hf
      obtain ⟨p, p0, -, pp, -⟩ := V.period (V.start_mem f hfm)
      have hmulp : ∀ q, S.next^[p * q] (S.start f) = S.start f := by
        intro q
        induction q with
        | zero => rfl
        | succ q ih => rw [Nat.mul_succ, Function.iterate_add_apply, pp, ih]
      have hn : S.next^[m1 + (p * m2 - m2)] h = S.opp h := by
        conv_lhs => rw [← e2]
        rw [← Function.iterate_add_apply]
        have : m1 + (p * m2 - m2) + m2 = m1 + p * m2 := by
          have : m2 ≤ p * m2 := Nat.le_mul_of_pos_left _ p0
          omega
        rw [this, Function.iterate_add_apply, hmulp, e1]
      refine ⟨(m1 + (p * m2 - m2)) % n, Nat.mod_lt _ n0, ?_⟩
      rw [← hn]
      conv_rhs => rw [← Nat.mod_add_div (m1 + (p * m2 - m2)) n, Function.iterate_add_apply, hmul]
    have q0 : 0 < q := by
      rcases Nat.eq_zero_or_pos q with h0 | h0
      · subst h0; exact absurd q2.symm (V.opp_ne h hh)
      · exact h0
    have pos_inj : ∀ i j, i < n → j < n → S.next^[i] h = S.next^[j] h → i = j := by
      intro i j hi hj he
      by_contra hne
      rcases Nat.lt_or_gt_of_ne hne with hlt | hlt
      · refine nm (j - i) (by omega) (by omega) (V.iter_inj (V.iter_mem hh _) hh i ?_)
        rw [← Function.iterate_add_apply, show i + (j - i) = j by omega, he]
      · refine nm (i - j) (by omega) (by omega) (V.iter_inj (V.iter_mem hh _) hh j ?_)
        rw [← Function.iterate_add_apply, show j + (i - j) = i by omega, he]
    have pa : S.next^[n - 1] h = S.prev h := by
      apply V.next_inj (V.iter_mem hh _) (V.prev_mem _ hh)
      rw [← Function.iterate_succ_apply' S.next, V.next_prev _ hh, show (n - 1).succ = n by omega, np]
    have pb : S.next^[q - 1] h = S.prev (S.opp h) := by
      apply V.next_inj (V.iter_mem hh _) (V.prev_mem _ ho)
      rw [← Function.iterate_succ_apply' S.next, V.next_prev _ ho, show (q - 1).succ = q by omega, q2]
    have qn : q ≠ n - 1 := by
      intro he
      apply n2
      rw [← q2, he, pa, V.next_prev h hh]
    rw [t1, relabel_endless _ _ _ (fun y => ∃ k, q + 1 ≤ k ∧ k ≤ n - 1 ∧ S.next^[k] h = y)]
    · rfl
    · rintro y ⟨k, k1, k2, rfl⟩
      have hkb : S.next^[k] h ≠ S.prev (S.opp h) := by
        rw [← pb]
        intro he
        have := pos_inj k (q - 1) (by omega) (by omega) he
        omega
      by_cases hka : k = n - 1
      · subst hka
        refine ⟨q + 1, le_refl _, by omega, ?_⟩
        rw [pa] at hkb ⊢
        unfold upd
        rw [if_neg hkb, if_pos rfl, Function.iterate_succ_apply', q2]
      · refine ⟨k + 1, by omega, by omega, ?_⟩
        unfold upd
        rw [if_neg hkb, if_neg, Function.iterate_succ_apply']
        rw [← pa]
        intro he
        exact hka (pos_inj k (n - 1) (by omega) (by omega) he)
    · rintro ⟨k, k1, k2, he⟩
      rw [← pb] at he
      have := pos_inj k (q - 1) (by omega) (by omega) he
      omega
    · exact ⟨n - 1, by omega, le_refl _, pa⟩

end City
