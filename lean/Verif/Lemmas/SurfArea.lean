import Verif.Lemmas.SurfJoin
import Verif.Lemmas.Fan
/-!
Area vectors of facets.
-/
set_option linter.unusedSectionVars false
namespace City
open Spec V3
variable {K : Type} [Field K] [LinearOrder K] [IsStrictOrderedRing K] {S : Surf K}

theorem boundary_iter {α : Type} (c : Nat → α) (n : Nat) (hn : 0 < n) (hc : c n = c 0) :
    boundary ((List.range n).map c) = (List.range n).map fun i => (c i, c (i + 1)) := by
  obtain ⟨n, rfl⟩ : ∃ m, n = m + 1 := ⟨n - 1, by omega⟩
  have e1 : (List.range (n + 1)).map c = c 0 :: (List.range n).map fun i => c (i + 1) := by
    rw [List.range_succ_eq_map, List.map_cons, List.map_map]
    rfl
  have e2 : ((List.range n).map fun i => c (i + 1)) ++ [c 0] = (List.range (n + 1)).map fun i => c (i + 1) := by
    rw [List.range_succ, List.map_append, ← hc]
    rfl
  rw [e1, boundary, e2, ← e1, List.zip_map']

/-- The area vector of the corners of a facet is the sum over its half-edges. -/
theorem corners_area (V : ValidSurf S) {f : Nat} (hf : f ∈ S.fs) :
    ∃ c, S.corners f = .ok c ∧ vectorArea2 c = facetVector S f := by
  obtain ⟨l, h1, h2, h3, n, n0, hl, hp⟩ := V.around hf
  refine ⟨_, by unfold Surf.corners; rw [h1, Out.ok_bind], ?_⟩
  have hs := V.start_mem f hf
  unfold vectorArea2 facetVector
  rw [hl, List.map_map]
  rw [boundary_iter ((fun h => S.pt (S.vert h)) ∘ fun i => S.next^[i] (S.start f)) n n0 (by simp [hp])]
  rw [List.map_map]
  have e : ((List.range n).map ((fun e : V3 K × V3 K => V3.cross e.1 e.2) ∘ fun i =>
      (((fun h => S.pt (S.vert h)) ∘ fun i => S.next^[i] (S.start f)) i, ((fun h => S.pt (S.vert h)) ∘ fun i => S.next^[i] (S.start f)) (i + 1)))) =
      ((List.range n).map fun i => S.next^[i + 1] (S.start f)).map (edgeCross S) := by
    rw [List.map_map]
    apply List.map_congr_left
    intro i _
    simp only [Function.comp, edgeCross]
    rw [Function.iterate_succ_apply', V.turn _ (V.iter_mem hs i)]
  rw [e]
  apply vsum_perm
  apply List.Perm.map
  have p1 : ((List.range n).map fun i => S.next^[i + 1] (S.start f)).Perm l := by
    rw [hl]
    obtain ⟨m, rfl⟩ : ∃ m, n = m + 1 := ⟨n - 1, by omega⟩
    conv_rhs => rw [List.range_succ_eq_map, List.map_cons, List.map_map]
    rw [List.range_succ, List.map_append]
    simp only [List.map_cons, List.map_nil, hp]
    exact List.perm_append_comm
  refine p1.trans ((List.perm_ext_iff_of_nodup h2 (V.nodup.filter _)).2 fun x => ?_)
  rw [h3, List.mem_filter, decide_eq_true_iff]

theorem edgeCross_opp (V : ValidSurf S) {h : Nat} (hh : h ∈ S.hs) : add (edgeCross S h) (edgeCross S (S.opp h)) = zero := by
  unfold edgeCross
  rw [V.opp_opp h hh]
  ext <;> simp only [add, cross, zero] <;> ring

theorem vsum_or {α : Type} (e : α → V3 K) (p q : α → Bool) : ∀ l : List α, (∀ x ∈ l, ¬ (p x = true ∧ q x = true)) →
    vsum ((l.filter fun x => p x || q x).map e) = add (vsum ((l.filter p).map e)) (vsum ((l.filter q).map e))
  | [], _ => by simp [vsum, add, zero]
  | a :: l, h => by
    have ih := vsum_or e p q l fun x hx => h x (List.mem_cons_of_mem _ hx)
    have ha := h a List.mem_cons_self
    rw [List.filter_cons, List.filter_cons, List.filter_cons]
    cases hp : p a <;> cases hq : q a
    · simpa using ih
    · simp only [Bool.or_true, if_true, List.map_cons, Bool.false_eq_true, if_false]
      show add (e a) (vsum _) = add (vsum _) (add (e a) (vsum _))
      rw [ih, ← add_assoc', add_comm' (e a), add_assoc']
    · simp only [Bool.or_false, if_true, List.map_cons, Bool.false_eq_true, if_false]
      show add (e a) (vsum _) = add (add (e a) (vsum _)) (vsum _)
      rw [ih, add_assoc']
    · exact absurd ⟨hp, hq⟩ ha

theorem vsum_remove {α : Type} [DecidableEq α] (e : α → V3 K) (p : α → Bool) (a : α) : ∀ l : List α, l.Nodup → a ∈ l → p a = true →
    vsum ((l.filter p).map e) = add (e a) (vsum ((l.filter fun x => p x && decide (x ≠ a)).map e)) := by
  intro l hn ha hp
  have hperm : (l.filter p).Perm (a :: l.filter fun x => p x && decide (x ≠ a)) := by
    refine (List.perm_ext_iff_of_nodup (hn.filter _) ?_).2 ?_
    · rw [List.nodup_cons]
      exact ⟨by simp, hn.filter _⟩
    · intro x
      simp only [List.mem_filter, List.mem_cons, Bool.and_eq_true, decide_eq_true_eq]
      constructor
      · rintro ⟨h1, h2⟩
        by_cases hx : x = a
        · exact Or.inl hx
        · exact Or.inr ⟨h1, h2, hx⟩
      · rintro (rfl | ⟨h1, h2, _⟩)
        · exact ⟨ha, hp⟩
        · exact ⟨h1, h2⟩
  rw [vsum_perm (hperm.map e)]
  rfl

theorem smul_of_cross {a b : V3 K} (h : cross a b = zero) (ha : a ≠ zero) : ∃ c, b = smul c a := by
  have hx : a.y * b.z - a.z * b.y = 0 := congrArg V3.x h
  have hy : a.z * b.x - a.x * b.z = 0 := congrArg V3.y h
  have hz : a.x * b.y - a.y * b.x = 0 := congrArg V3.z h
  by_cases h1 : a.x = 0
  · by_cases h2 : a.y = 0
    · have h3 : a.z ≠ 0 := by
        intro h3
        exact ha (by ext <;> assumption)
      refine ⟨b.z / a.z, ?_⟩
      ext <;> simp only [smul] <;> field_simp <;> linarith
    · refine ⟨b.y / a.y, ?_⟩
      ext <;> simp only [smul] <;> field_simp <;> linarith
  · refine ⟨b.x / a.x, ?_⟩
    ext <;> simp only [smul] <;> field_simp <;> linarith

/-- The area vector of the joined facet is the sum of the two; those of the others do not change. -/
theorem join_area (V : ValidSurf S) {h f g : Nat} (hh : h ∈ S.hs) (hf : S.face h = some f) (hg : S.face (S.opp h) = some g) (hne : f ≠ g)
    {S' : Surf K} (hs : S'.hs = (S.hs.filter fun k => decide (k ≠ h ∧ k ≠ S.opp h))) (hv : S'.vert = S.vert) (ho : S'.opp = S.opp) (hp : S'.pt = S.pt)
    (hface : ∀ x ∈ S'.hs, S'.face x = if S.face x = some g then some f else S.face x) :
    facetVector S' f = add (facetVector S f) (facetVector S g) ∧ ∀ k, k ≠ f → k ≠ g → facetVector S' k = facetVector S k := by
  have he : edgeCross S' = edgeCross S := by
    funext x
    unfold edgeCross
    rw [hv, ho, hp]
  have hoh := V.opp_mem h hh
  constructor
  · unfold facetVector
    rw [he]
    rw [← vsum_or (edgeCross S) (fun x => decide (S.face x = some f)) (fun x => decide (S.face x = some g)) S.hs (by
      intro x _
      simp only [decide_eq_true_eq]
      rintro ⟨h1, h2⟩
      rw [h1] at h2
      exact hne (Option.some.inj h2))]
    rw [vsum_remove (edgeCross S) _ h S.hs V.nodup hh (by simp [hf]),
      vsum_remove (edgeCross S) _ (S.opp h) S.hs V.nodup hoh (by simp [hg, V.opp_ne h hh]), ← add_assoc', edgeCross_opp V hh, zero_add']
    congr 2
    rw [hs, List.filter_filter]
    apply List.filter_congr
    intro x hx
    rw [Bool.eq_iff_iff]
    by_cases hx1 : x = h
    · simp [hx1]
    · by_cases hx2 : x = S.opp h
      · simp [hx2]
      · have := hface x (by rw [hs, List.mem_filter, decide_eq_true_iff]; exact ⟨hx, hx1, hx2⟩)
        simp only [this, Bool.and_eq_true, decide_eq_true_eq, Bool.or_eq_true]
        by_cases hxg : S.face x = some g
        · simp [hxg, hx1, hx2]
        · simp [hxg, hx1, hx2]
  · intro k hkf hkg
    unfold facetVector
    rw [he, hs, List.filter_filter]
    congr 2
    apply List.filter_congr
    intro x hx
    rw [Bool.eq_iff_iff]
    by_cases hx1 : x = h
    · subst hx1
      simp only [Bool.and_eq_true, decide_eq_true_eq, hf]
      constructor
      · rintro ⟨_, h, _⟩; exact absurd rfl h
      · intro h; exact absurd (Option.some.inj h).symm hkf
    · by_cases hx2 : x = S.opp h
      · subst hx2
        simp only [Bool.and_eq_true, decide_eq_true_eq, hg]
        constructor
        · rintro ⟨_, _, h⟩; exact absurd rfl h
        · intro h; exact absurd (Option.some.inj h).symm hkg
      · have := hface x (by rw [hs, List.mem_filter, decide_eq_true_iff]; exact ⟨hx, hx1, hx2⟩)
        simp only [this, Bool.and_eq_true, decide_eq_true_eq]
        by_cases hxg : S.face x = some g
        · simp only [hxg, if_true, Option.some.injEq]
          constructor
          · rintro ⟨h, _⟩; exact absurd h.symm hkf
          · intro h; exact absurd h.symm hkg
        · simp [hxg, hx1, hx2]

end City
