import Verif.Lemmas.Surf
import Verif.Lemmas.Raster
/-!
C57, C58: the facets of a surface, their adjacency and their numbers.
-/
set_option linter.unusedSectionVars false
namespace City.Props
open City City.Spec
variable {K : Type} {S : Surf K}

theorem mark_ok {m : List Bool} {k : Nat} (h : k < m.length) : Surf.mark m k = .ok (m.set k true) := by
  unfold Surf.mark; rw [if_pos h]

theorem set_true_iff {m : List Bool} {k j : Nat} (h : k < m.length) : (m.set k true)[j]? = some true ↔ m[j]? = some true ∨ j = k := by
  by_cases he : k = j
  · subst he; simp [h]
  · rw [List.getElem?_set_ne he]
    constructor
    · exact Or.inl
    · rintro (h | h)
      · exact h
      · exact absurd h.symm he

theorem markDiagonal_spec (n : Nat) : ∀ (ds : List Nat) (m : List Bool), m.length = n * n → (∀ d ∈ ds, d < n) →
    ∃ m', Surf.markDiagonal n ds m = .ok m' ∧ m'.length = n * n ∧ ∀ k, m'[k]? = some true ↔ m[k]? = some true ∨ ∃ d ∈ ds, k = d * n + d
  | [], m, h, _ => ⟨m, rfl, h, fun k => by simp⟩
  | d :: ds, m, h, hd => by
    have hk : d * n + d < m.length := by rw [h]; exact key_lt (hd d List.mem_cons_self) (hd d List.mem_cons_self)
    obtain ⟨m', h1, h2, h3⟩ := markDiagonal_spec n ds (m.set (d * n + d) true) (by rw [List.length_set, h])
      fun x hx => hd x (List.mem_cons_of_mem _ hx)
    refine ⟨m', by unfold Surf.markDiagonal; rw [mark_ok hk, Out.ok_bind, h1], h2, fun k => ?_⟩
    rw [h3, set_true_iff hk]
    simp only [List.mem_cons, exists_eq_or_imp]
    tauto

theorem markLine_spec (S : Surf K) (line : Nat) (hl : line < S.fs.length) : ∀ (as : List Nat) (m : List Bool),
    m.length = S.fs.length * S.fs.length →
    ∃ m', S.markLine line as m = .ok m' ∧ m'.length = S.fs.length * S.fs.length ∧
      ∀ k, m'[k]? = some true ↔ m[k]? = some true ∨ ∃ a ∈ as, ∃ c, S.fs.idxOf? a = some c ∧ k = line * S.fs.length + c
  | [], m, h => ⟨m, rfl, h, fun k => by simp⟩
  | a :: as, m, h => by
    cases hc : S.fs.idxOf? a with
    | none =>
      obtain ⟨m', h1, h2, h3⟩ := markLine_spec S line hl as m h
      refine ⟨m', by unfold Surf.markLine; rw [hc]; exact h1, h2, fun k => ?_⟩
      rw [h3]
      simp only [List.mem_cons, exists_eq_or_imp, hc]
      simp
    | some c =>
      have hcl : c < S.fs.length := by
        rw [List.idxOf?, List.findIdx?_eq_some_iff_getElem] at hc
        exact hc.1
      have hk : line * S.fs.length + c < m.length := by rw [h]; exact key_lt hl hcl
      obtain ⟨m', h1, h2, h3⟩ := markLine_spec S line hl as (m.set (line * S.fs.length + c) true) (by rw [List.length_set, h])
      refine ⟨m', by unfold Surf.markLine; rw [hc]; dsimp only; rw [mark_ok hk, Out.ok_bind, h1], h2, fun k => ?_⟩
      rw [h3, set_true_iff hk]
      simp only [List.mem_cons, exists_eq_or_imp, hc]
      constructor
      · rintro ((h | h) | h)
        · exact Or.inl h
        · exact Or.inr (Or.inl ⟨c, rfl, h⟩)
        · exact Or.inr (Or.inr h)
      · rintro (h | ⟨_, ⟨rfl⟩, h⟩ | h)
        · exact Or.inl (Or.inl h)
        · exact Or.inl (Or.inr h)
        · exact Or.inr h

theorem adjacents_spec (V : ValidSurf S) {f : Nat} (hf : f ∈ S.fs) : ∃ as, S.adjacents f = .ok as ∧ ∀ g, g ∈ as ↔ ShareEdge S f g := by
  obtain ⟨l, h1, _, h3, _⟩ := V.around hf
  refine ⟨_, by unfold Surf.adjacents; rw [h1, Out.ok_bind], fun g => ?_⟩
  simp only [List.mem_filterMap, List.mem_filter, h3]
  constructor
  · rintro ⟨h, ⟨⟨a, b⟩, _⟩, c⟩
    exact ⟨h, a, b, c⟩
  · rintro ⟨h, a, b, c⟩
    exact ⟨h, ⟨⟨a, b⟩, by simp [Surf.isBorder, b]⟩, c⟩

theorem markLines_spec (V : ValidSurf S) : ∀ (r : List (Nat × Nat)) (m : List Bool), m.length = S.fs.length * S.fs.length →
    (∀ p ∈ r, p.1 ∈ S.fs ∧ p.2 < S.fs.length) →
    ∃ m', S.markLines r m = .ok m' ∧ m'.length = S.fs.length * S.fs.length ∧
      ∀ k, m'[k]? = some true ↔ m[k]? = some true ∨ ∃ p ∈ r, ∃ g c, ShareEdge S p.1 g ∧ S.fs.idxOf? g = some c ∧ k = p.2 * S.fs.length + c
  | [], m, h, _ => ⟨m, rfl, h, fun k => by simp⟩
  | (f, line) :: r, m, h, hr => by
    obtain ⟨hf, hl⟩ := hr _ List.mem_cons_self
    obtain ⟨as, a1, a2⟩ := adjacents_spec V hf
    obtain ⟨m1, b1, b2, b3⟩ := markLine_spec S line hl as m h
    obtain ⟨m', c1, c2, c3⟩ := markLines_spec V r m1 b2 fun p hp => hr p (List.mem_cons_of_mem _ hp)
    refine ⟨m', by unfold Surf.markLines; rw [a1, Out.ok_bind, b1, Out.ok_bind, c1], c2, fun k => ?_⟩
    rw [c3, b3]
    simp only [List.mem_cons, exists_eq_or_imp, a2]
    constructor
    · rintro ((h | ⟨a, h1, c, h2⟩) | h)
      · exact Or.inl h
      · exact Or.inr (Or.inl ⟨a, c, h1, h2⟩)
      · exact Or.inr (Or.inr h)
    · rintro (h | ⟨a, c, h1, h2⟩ | h)
      · exact Or.inl (Or.inl h)
      · exact Or.inl (Or.inr ⟨a, h1, c, h2⟩)
      · exact Or.inr h

/-- C57: for every valid surface, closed or not, the matrix has n times n entries; the entry in line `i` and column `j` is true exactly when `i = j` or the
facets number `i` and `j` share an edge. -/
theorem C57_matrix (V : ValidSurf S) : ∃ m, S.adjacencyMatrix = .ok m ∧ m.length = S.fs.length * S.fs.length ∧
    ∀ i j f g, S.fs[i]? = some f → S.fs[j]? = some g →
      (m[i * S.fs.length + j]? = some true ↔ i = j ∨ ShareEdge S f g) ∧
      (m[i * S.fs.length + j]? = some false ↔ ¬ (i = j ∨ ShareEdge S f g)) := by
  obtain ⟨m0, a1, a2, a3⟩ := markDiagonal_spec S.fs.length (List.range S.fs.length) (List.replicate (S.fs.length * S.fs.length) false) (by simp)
    fun d hd => List.mem_range.1 hd
  obtain ⟨m, b1, b2, b3⟩ := markLines_spec V S.fs.zipIdx m0 a2 (by
    intro p hp
    obtain ⟨h1, h2⟩ := List.mem_zipIdx' hp
    exact ⟨by rw [h2]; exact List.getElem_mem _, h1⟩)
  refine ⟨m, by unfold Surf.adjacencyMatrix; rw [a1, Out.ok_bind, b1], b2, fun i j f g hf hg => ?_⟩
  have hi := (List.getElem?_eq_some_iff.1 hf).1
  have hj := (List.getElem?_eq_some_iff.1 hg).1
  have htrue : m[i * S.fs.length + j]? = some true ↔ i = j ∨ ShareEdge S f g := by
    rw [b3, a3]
    constructor
    · rintro ((h | ⟨d, hd, he⟩) | ⟨⟨f', i'⟩, hp, g', c, hs, hc, he⟩)
      · rw [List.getElem?_replicate] at h
        split at h <;> simp at h
      · obtain ⟨rfl, rfl⟩ := key_inj hj (List.mem_range.1 hd) he
        exact Or.inl rfl
      · rw [List.idxOf?, List.findIdx?_eq_some_iff_getElem] at hc
        obtain ⟨hc1, hc2, _⟩ := hc
        obtain ⟨rfl, rfl⟩ := key_inj hj hc1 he
        right
        have e1 : S.fs[i]? = some f' := List.mem_zipIdx_iff_getElem?.1 hp
        rw [hf] at e1
        cases e1
        have e2 : g' = S.fs[j] := (eq_of_beq hc2).symm
        rw [List.getElem?_eq_getElem hc1] at hg
        cases hg
        rw [← e2]
        exact hs
    · rintro (rfl | hs)
      · exact Or.inl (Or.inr ⟨i, List.mem_range.2 hi, rfl⟩)
      · refine Or.inr ⟨(f, i), List.mem_zipIdx_iff_getElem?.2 hf, g, j, hs, ?_, rfl⟩
        rw [List.idxOf?, List.findIdx?_eq_some_iff_getElem]
        have hgj : S.fs[j] = g := by rw [List.getElem?_eq_getElem hj] at hg; exact Option.some.inj hg
        refine ⟨hj, by simp [hgj], fun k hk => ?_⟩
        simp only [beq_iff_eq]
        intro he
        have := (List.Nodup.getElem_inj_iff V.fnodup).1 (he.trans hgj.symm)
        omega
  refine ⟨htrue, ?_⟩
  rw [← htrue]
  have hk : i * S.fs.length + j < m.length := by rw [b2]; exact key_lt hi hj
  rw [List.getElem?_eq_getElem hk]
  cases m[i * S.fs.length + j] <;> simp

theorem shareEdge_symm (V : ValidSurf S) {f g : Nat} (h : ShareEdge S f g) : ShareEdge S g f := by
  obtain ⟨h, a, b, c⟩ := h
  exact ⟨S.opp h, V.opp_mem h a, c, by rw [V.opp_opp h a]; exact b⟩

/-- C57: the matrix is symmetric. -/
theorem C57_symmetric (V : ValidSurf S) (m : List Bool) (h : S.adjacencyMatrix = .ok m) (i j : Nat) (hi : i < S.fs.length) (hj : j < S.fs.length) :
    m[i * S.fs.length + j]? = m[j * S.fs.length + i]? ∧ ∃ b, m[i * S.fs.length + j]? = some b := by
  obtain ⟨m', h1, h2, h3⟩ := C57_matrix V
  rw [h] at h1
  cases h1
  obtain ⟨a1, a2⟩ := h3 i j _ _ (List.getElem?_eq_getElem hi) (List.getElem?_eq_getElem hj)
  obtain ⟨b1, b2⟩ := h3 j i _ _ (List.getElem?_eq_getElem hj) (List.getElem?_eq_getElem hi)
  have hs : (i = j ∨ ShareEdge S S.fs[i] S.fs[j]) ↔ (j = i ∨ ShareEdge S S.fs[j] S.fs[i]) :=
    or_congr eq_comm ⟨shareEdge_symm V, shareEdge_symm V⟩
  by_cases hc : i = j ∨ ShareEdge S S.fs[i] S.fs[j]
  · exact ⟨by rw [a1.2 hc, b1.2 (hs.1 hc)], true, a1.2 hc⟩
  · exact ⟨by rw [a2.2 hc, b2.2 (mt hs.2 hc)], false, a2.2 hc⟩

theorem foldl_upd : ∀ (l : List (Nat × Nat)) (g : Nat → Nat) (f : Nat), (l.map Prod.fst).Nodup →
    (∀ i, (f, i) ∈ l → l.foldl (fun g p => upd g p.1 p.2) g f = i) ∧ (f ∉ l.map Prod.fst → l.foldl (fun g p => upd g p.1 p.2) g f = g f)
  | [], g, f, _ => by simp
  | (a, k) :: l, g, f, hn => by
    rw [List.map_cons, List.nodup_cons] at hn
    obtain ⟨h1, h2⟩ := foldl_upd l (upd g a k) f hn.2
    rw [List.foldl_cons]
    constructor
    · intro i hi
      rcases List.mem_cons.1 hi with he | hi
      · cases he
        rw [h2 hn.1]
        simp [upd]
      · exact h1 i hi
    · intro hf
      rw [List.map_cons, List.mem_cons, not_or] at hf
      rw [h2 hf.2]
      unfold upd
      rw [if_neg hf.1]

/-- C58: after the numbering the identifier of every facet is its position, counted from 0; nothing else is changed. -/
theorem C58_ids (hn : S.fs.Nodup) : (∀ i f, S.fs[i]? = some f → S.setIds.fid f = i) ∧ S.setIds.fs.map S.setIds.fid = List.range S.fs.length ∧
    (S.setIds.fs.map S.setIds.fid).Nodup ∧ S.setIds = { S with fid := S.setIds.fid } := by
  have hmap : S.fs.zipIdx.map Prod.fst = S.fs := List.zipIdx_map_fst ..
  have h1 : ∀ i f, S.fs[i]? = some f → S.setIds.fid f = i := by
    intro i f hf
    exact (foldl_upd S.fs.zipIdx S.fid f (by rw [hmap]; exact hn)).1 i (List.mem_zipIdx_iff_getElem?.2 hf)
  have h2 : S.setIds.fs.map S.setIds.fid = List.range S.fs.length := by
    apply List.ext_getElem?
    intro i
    show (S.fs.map S.setIds.fid)[i]? = _
    rw [List.getElem?_map]
    by_cases hi : i < S.fs.length
    · rw [List.getElem?_eq_getElem hi, List.getElem?_range hi, Option.map_some, h1 i _ (List.getElem?_eq_getElem hi)]
    · rw [List.getElem?_eq_none (by omega), List.getElem?_eq_none (by simpa using hi)]
      rfl
  exact ⟨h1, h2, by rw [h2]; exact List.nodup_range, rfl⟩

/-- C58: numbering twice is numbering once. -/
theorem C58_idempotent (hn : S.fs.Nodup) : ∀ f ∈ S.fs, S.setIds.setIds.fid f = S.setIds.fid f := by
  intro f hf
  obtain ⟨i, hi, rfl⟩ := List.getElem_of_mem hf
  rw [(C58_ids hn).1 i _ (List.getElem?_eq_getElem hi), (C58_ids (S := S.setIds) hn).1 i _ (List.getElem?_eq_getElem hi)]

end City.Props
