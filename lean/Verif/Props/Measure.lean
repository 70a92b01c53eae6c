import Verif.Model.Measure
import Verif.Lemmas.SurfArea
import Verif.Lemmas.SurfDemo
import Verif.Spec.Node
import Mathlib.Tactic.Ring
import Mathlib.Tactic.Linarith
import Mathlib.Tactic.LinearCombination
import Mathlib.Tactic.FieldSimp
import Mathlib.Algebra.BigOperators.Group.List.Lemmas
import Mathlib.Algebra.Order.BigOperators.Group.List
/-!
C64: lengths and areas. 
-/
set_option linter.unusedSectionVars false
namespace City.Props
open City City.Spec V3

variable {S S' : Surf ℝ}

/-- The length of the straight edge between two points. -/
noncomputable def distance (p q : V3 ℝ) : ℝ := Real.sqrt (dist2 p q)

theorem foldl_add_sum {α : Type} (g : α → ℝ) : ∀ (l : List α) (s : ℝ), l.foldl (fun s h => s + g h) s = s + (l.map g).sum
  | [], s => by simp
  | a :: l, s => by rw [List.foldl_cons, foldl_add_sum g l, List.map_cons, List.sum_cons]; ring

theorem edgeLength_eq (S : Surf ℝ) (h : Nat) : S.edgeLength h = distance (S.pt (S.vert h)) (S.pt (S.vert (S.opp h))) := by
  unfold Surf.edgeLength distance dist2
  congr 1
  simp only [dot, vec]; ring

/-- C64: the circumference of a facet is the sum of the lengths of its edges, each counted once, on every valid surface; the edges of a facet lead from one
corner to the next. -/
theorem C64_facet (V : ValidSurf S) (f : Nat) (hf : f ∈ S.fs) :
    S.circumference f = .ok ((S.hs.filter fun h => decide (S.face h = some f)).map fun h => distance (S.pt (S.vert h)) (S.pt (S.vert (S.opp h)))).sum ∧
    ∃ n, 0 < n ∧ S.next^[n] (S.start f) = S.start f ∧ S.circumference f =
      .ok ((List.range n).map fun i => distance (S.pt (S.vert (S.next^[i] (S.start f)))) (S.pt (S.vert (S.next^[i + 1] (S.start f))))).sum := by
  obtain ⟨l, h1, h2, h3, n, n0, hl, hp⟩ := V.around hf
  have hs := V.start_mem f hf
  have e : S.circumference f = .ok (l.map S.edgeLength).sum := by
    unfold Surf.circumference
    rw [h1, Out.ok_bind, foldl_add_sum, zero_add]
  have hmap : l.map S.edgeLength = l.map fun h => distance (S.pt (S.vert h)) (S.pt (S.vert (S.opp h))) :=
    List.map_congr_left fun h _ => edgeLength_eq S h
  constructor
  · rw [e, hmap]
    congr 1
    apply List.Perm.sum_eq
    apply List.Perm.map
    refine (List.perm_ext_iff_of_nodup h2 (V.nodup.filter _)).2 fun x => ?_
    rw [h3, List.mem_filter, decide_eq_true_iff]
  · refine ⟨n, n0, hp, ?_⟩
    rw [e]
    congr 1
    -- the edge of a half-edge ends where the one before it ends
    have p1 : ((List.range n).map fun i => S.next^[i + 1] (S.start f)).Perm l := by
      rw [hl]
      obtain ⟨m, rfl⟩ : ∃ m, n = m + 1 := ⟨n - 1, by omega⟩
      conv_rhs => rw [List.range_succ_eq_map, List.map_cons, List.map_map]
      rw [List.range_succ, List.map_append]
      simp only [List.map_cons, List.map_nil, hp]
      exact List.perm_append_comm
    rw [← (p1.map S.edgeLength).sum_eq, List.map_map]
    congr 1
    apply List.map_congr_left
    intro i _
    simp only [Function.comp]
    rw [edgeLength_eq, Function.iterate_succ_apply', V.turn _ (V.iter_mem hs i)]
    unfold distance dist2
    congr 1; ring

/-- C64: it does not matter at which of its half-edges a facet starts. -/
theorem C64_start (V : ValidSurf S) (V' : ValidSurf S') (f : Nat) (hf : f ∈ S.fs) (h1 : S'.hs = S.hs) (h2 : S'.fs = S.fs) (h3 : S'.face = S.face)
    (h4 : S'.vert = S.vert) (h5 : S'.opp = S.opp) (h6 : S'.pt = S.pt) : S'.circumference f = S.circumference f := by
  rw [(C64_facet V f hf).1, (C64_facet V' f (by rw [h2]; exact hf)).1, h1, h3, h4, h5, h6]

/-- A map of space that keeps distances. -/
def Isometric (m : V3 ℝ → V3 ℝ) : Prop := ∀ p q, dist2 (m p) (m q) = dist2 p q

theorem valid_transform {m : V3 ℝ → V3 ℝ} (V : ValidSurf S) : ValidSurf (S.transform m) :=
  ⟨V.nodup, V.fnodup, V.next_mem, V.prev_mem, V.opp_mem, V.vert_mem, V.prev_next, V.next_prev, V.opp_opp, V.opp_ne, V.next_ne, V.two_ne, V.vert_ne,
    V.turn, V.face_mem, V.face_next, V.start_mem, V.face_start, V.one_cycle⟩

theorem edgeLength_transform (V : ValidSurf S) {m : V3 ℝ → V3 ℝ} {c : ℝ} (hc : 0 ≤ c) (hm : ∀ p q, dist2 (m p) (m q) = c ^ 2 * dist2 p q) {h : Nat}
    (hh : h ∈ S.hs) : (S.transform m).edgeLength h = c * S.edgeLength h := by
  rw [edgeLength_eq, edgeLength_eq]
  simp only [Surf.transform, V.vert_mem h hh, V.vert_mem _ (V.opp_mem h hh), if_true]
  unfold distance
  rw [hm, Real.sqrt_mul (sq_nonneg c), Real.sqrt_sq hc]

/-- C64: when all distances are multiplied by `c` (`1` for translations and rotations, `|s|` for a scaling by `s`) so is the circumference of every facet, and so is the
total length of the edges. -/
theorem C64_transform (V : ValidSurf S) (m : V3 ℝ → V3 ℝ) (c : ℝ) (hc : 0 ≤ c) (hm : ∀ p q, dist2 (m p) (m q) = c ^ 2 * dist2 p q) :
    (∀ f ∈ S.fs, ∀ r, S.circumference f = .ok r → (S.transform m).circumference f = .ok (c * r)) ∧
    (S.transform m).totalEdgeLength = c * S.totalEdgeLength := by
  have hl : ∀ l : List Nat, (∀ h ∈ l, h ∈ S.hs) → (l.map (S.transform m).edgeLength).sum = c * (l.map S.edgeLength).sum := by
    intro l
    induction l with
    | nil => simp
    | cons h l ih =>
      intro hl
      rw [List.map_cons, List.map_cons, List.sum_cons, List.sum_cons, ih fun x hx => hl x (List.mem_cons_of_mem _ hx),
        edgeLength_transform V hc hm (hl h List.mem_cons_self)]
      ring
  constructor
  · intro f hf r hr
    obtain ⟨l, h1, h2, h3, _⟩ := V.around hf
    have h1' : (S.transform m).around f = .ok l := h1
    unfold Surf.circumference at hr ⊢
    rw [h1, Out.ok_bind, foldl_add_sum] at hr
    rw [h1', Out.ok_bind, foldl_add_sum, hl l fun x hx => ((h3 x).1 hx).1]
    cases hr
    congr 1; ring
  · unfold Surf.totalEdgeLength
    rw [foldl_add_sum, foldl_add_sum, show (S.transform m).hs = S.hs from rfl, hl S.hs fun _ h => h]
    ring

/-- C64: `circumference` is invariant under translations, and `|s|` times as large after scaling by `s`. -/
theorem C64_translate (V : ValidSurf S) (f : Nat) (hf : f ∈ S.fs) (v : V3 ℝ) (s : ℝ) (r : ℝ) (hr : S.circumference f = .ok r) :
    (S.transform (Aff.translation v).apply).circumference f = .ok r ∧ (S.transform (Aff.scaling s).apply).circumference f = .ok (|s| * r) := by
  constructor
  · have := (C64_transform V (Aff.translation v).apply 1 zero_le_one (by
      intro p q; simp only [dist2, Aff.apply, Aff.translation, dot]; ring)).1 f hf r hr
    rwa [one_mul] at this
  · exact (C64_transform V (Aff.scaling s).apply |s| (abs_nonneg s) (by
      intro p q; rw [sq_abs]; simp only [dist2, Aff.apply, Aff.scaling, dot, zero]; ring)).1 f hf r hr

/-- One half-edge of every edge. -/
structure EdgeSet (S : Surf ℝ) (E : List Nat) : Prop where
  nodup : E.Nodup
  mem : ∀ h ∈ E, h ∈ S.hs
  one : ∀ h ∈ S.hs, (h ∈ E ∧ S.opp h ∉ E) ∨ (h ∉ E ∧ S.opp h ∈ E)

/-- The full claim about `total_edge_length`. -/
def C64_total_full : Prop := ∀ (S : Surf ℝ) (E : List Nat), ValidSurf S → EdgeSet S E →
  S.totalEdgeLength = (E.map fun h => distance (S.pt (S.vert h)) (S.pt (S.vert (S.opp h)))).sum

/-- C64 (partial): `total_edge_length` is twice the total length of the edges: every edge is counted from both sides. -/
theorem C64_total_partial (V : ValidSurf S) (E : List Nat) (hE : EdgeSet S E) :
    S.totalEdgeLength = 2 * (E.map fun h => distance (S.pt (S.vert h)) (S.pt (S.vert (S.opp h)))).sum := by
  have p : S.hs.Perm (E ++ E.map S.opp) := by
    refine (List.perm_ext_iff_of_nodup V.nodup ?_).2 fun x => ?_
    · refine List.Nodup.append hE.nodup ?_ ?_
      · refine (List.nodup_map_iff_inj_on hE.nodup).2 fun a ha b hb h => ?_
        rw [← V.opp_opp a (hE.mem a ha), h, V.opp_opp b (hE.mem b hb)]
      · intro x hx hx'
        obtain ⟨y, hy, rfl⟩ := List.mem_map.1 hx'
        rcases hE.one y (hE.mem y hy) with h | h
        · exact h.2 hx
        · exact h.1 hy
    · rw [List.mem_append, List.mem_map]
      constructor
      · intro hx
        rcases hE.one x hx with h | h
        · exact Or.inl h.1
        · exact Or.inr ⟨S.opp x, h.2, V.opp_opp x hx⟩
      · rintro (h | ⟨y, hy, rfl⟩)
        · exact hE.mem x h
        · exact V.opp_mem y (hE.mem y hy)
  unfold Surf.totalEdgeLength
  rw [foldl_add_sum, zero_add, (p.map S.edgeLength).sum_eq, List.map_append, List.sum_append, List.map_map, two_mul]
  congr 1
  · congr 1
    exact List.map_congr_left fun h _ => edgeLength_eq S h
  · congr 1
    apply List.map_congr_left
    intro h hh
    simp only [Function.comp]
    rw [edgeLength_eq, V.opp_opp h (hE.mem h hh)]
    unfold distance dist2
    congr 1; ring

/-- The same surface with real coordinates. -/
noncomputable def realSurf (S : Surf ℚ) : Surf ℝ :=
  ⟨S.hs, S.fs, S.vs, S.next, S.prev, S.opp, S.vert, S.face, S.start, S.fid, fun v => ⟨(S.pt v).x, (S.pt v).y, (S.pt v).z⟩⟩

theorem realSurf_valid {S : Surf ℚ} (V : ValidSurf S) : ValidSurf (realSurf S) :=
  ⟨V.nodup, V.fnodup, V.next_mem, V.prev_mem, V.opp_mem, V.vert_mem, V.prev_next, V.next_prev, V.opp_opp, V.opp_ne, V.next_ne, V.two_ne, V.vert_ne,
    V.turn, V.face_mem, V.face_next, V.start_mem, V.face_start, V.one_cycle⟩

/-- One half-edge per edge of the tetrahedron. -/
def tetraEdges : List Nat := tetra.hs.filter fun h => decide (h < tetra.opp h)

theorem tetraEdges_set : EdgeSet (realSurf tetra) tetraEdges := by
  have h1 : ∀ h ∈ tetra.hs, (h ∈ tetraEdges ∧ tetra.opp h ∉ tetraEdges) ∨ (h ∉ tetraEdges ∧ tetra.opp h ∈ tetraEdges) := by decide +kernel
  exact ⟨by decide +kernel, fun h hh => (List.mem_filter.1 hh).1, h1⟩

/-- C64 is false of `total_edge_length`: a tetrahedron gets twice its edges. -/
theorem C64_refuted : ¬ C64_total_full := by
  intro h
  have V := realSurf_valid tetra_valid
  have e1 := h _ _ V tetraEdges_set
  have e2 := C64_total_partial V _ tetraEdges_set
  have hz : (tetraEdges.map fun h => distance ((realSurf tetra).pt ((realSurf tetra).vert h)) ((realSurf tetra).pt ((realSurf tetra).vert ((realSurf tetra).opp h)))).sum = 0 := by
    linarith
  have hm : 0 ∈ tetraEdges := by decide +kernel
  have hp : 0 < distance ((realSurf tetra).pt ((realSurf tetra).vert 0)) ((realSurf tetra).pt ((realSurf tetra).vert ((realSurf tetra).opp 0))) := by
    unfold distance
    apply Real.sqrt_pos.2
    have hq : 0 < dist2 (tetra.pt (tetra.vert 0)) (tetra.pt (tetra.vert (tetra.opp 0))) := by decide +kernel
    have : dist2 ((realSurf tetra).pt ((realSurf tetra).vert 0)) ((realSurf tetra).pt ((realSurf tetra).vert ((realSurf tetra).opp 0)))
      = ((dist2 (tetra.pt (tetra.vert 0)) (tetra.pt (tetra.vert (tetra.opp 0))) : ℚ) : ℝ) := by
      simp only [dist2, realSurf]; push_cast; rfl
    rw [this]
    exact_mod_cast hq
  have hle := List.single_le_sum (l := tetraEdges.map fun h => distance ((realSurf tetra).pt ((realSurf tetra).vert h)) ((realSurf tetra).pt ((realSurf tetra).vert ((realSurf tetra).opp h))))
    (by
      intro x hx
      obtain ⟨y, _, rfl⟩ := List.mem_map.1 hx
      exact Real.sqrt_nonneg _) _ (List.mem_map_of_mem hm)
  linarith

/-! Polygons -/

theorem sqDist_comm (p q : V2 ℝ) : sqDist p q = sqDist q p := by simp only [sqDist]; ring

theorem polyEdges_length {K : Type} (p : Poly K) : (polyEdges p).length = p.length := by
  cases p <;> simp [polyEdges]

theorem polyEdges_rotate {K : Type} (a : V2 K) (p : Poly K) : (polyEdges (p ++ [a])).Perm (polyEdges (a :: p)) := by
  cases p with
  | nil => simp [polyEdges]
  | cons b t =>
    simp only [polyEdges, List.cons_append]
    have e : (b :: (t ++ [a])).zip (t ++ [a] ++ [b]) = (b :: t).zip (t ++ [a]) ++ [(a, b)] := by
      rw [show b :: (t ++ [a]) = (b :: t) ++ [a] by simp, List.zip_append (by simp)]
      simp
    rw [e, List.zip_cons_cons]
    exact List.perm_append_singleton _ _

/-- C64: the circumference of a polygon is the sum of its edge lengths, of which there are as many as vertices; it does not depend on the first vertex and
not on the position. -/
theorem C64_polygon (p : Poly ℝ) :
    polyCircumference p = (edgeLengths p).sum ∧ (edgeLengths p).length = p.length ∧
    (∀ i, (hi : i < p.length) → (edgeLengths p)[i]? = some (Real.sqrt (sqDist p[i] (p[(i + 1) % p.length]'(Nat.mod_lt _ (by omega)))))) ∧
    (∀ q, p ~r q → polyCircumference q = polyCircumference p) ∧
    (∀ v : V2 ℝ, polyCircumference (p.map fun a => ⟨a.x + v.x, a.y + v.y⟩) = polyCircumference p) := by
  have hsum : ∀ p : Poly ℝ, polyCircumference p = (edgeLengths p).sum := by
    intro p
    unfold polyCircumference edgeLengths
    rw [foldl_add_sum, zero_add]
  refine ⟨hsum p, by simp [edgeLengths, polyEdges_length], ?_, ?_, ?_⟩
  · intro i hi
    cases p with
    | nil => simp at hi
    | cons a t =>
      simp only [edgeLengths, polyEdges, List.getElem?_map]
      have hz : i < ((a :: t).zip (t ++ [a])).length := by simp at hi ⊢; omega
      rw [List.getElem?_eq_getElem hz, List.getElem_zip]
      simp only [Option.map_some]
      congr 3
      by_cases hl : i = t.length
      · subst hl; simp
      · have hi' : i < t.length := by simp at hi; omega
        rw [List.getElem_append_left hi']
        have : (i + 1) % (a :: t).length = i + 1 := Nat.mod_eq_of_lt (by simp; omega)
        simp only [this, List.getElem_cons_succ]
  · rintro q ⟨n, rfl⟩
    induction n generalizing p with
    | zero => simp
    | succ n ih =>
      cases p with
      | nil => simp
      | cons a t =>
        rw [List.rotate_cons_succ, ih, hsum, hsum]
        exact ((polyEdges_rotate a t).map _).sum_eq
  · intro v
    rw [hsum, hsum]
    congr 1
    cases p with
    | nil => rfl
    | cons a t =>
      simp only [edgeLengths, polyEdges, List.map_cons]
      rw [show t.map (fun a => (⟨a.x + v.x, a.y + v.y⟩ : V2 ℝ)) ++ [⟨a.x + v.x, a.y + v.y⟩] = (t ++ [a]).map (fun a => ⟨a.x + v.x, a.y + v.y⟩) by simp,
        ← List.map_cons (f := fun a : V2 ℝ => (⟨a.x + v.x, a.y + v.y⟩ : V2 ℝ)), List.zip_map, List.map_map]
      apply List.map_congr_left
      intro e _
      simp only [Function.comp, Prod.map, sqDist]
      congr 1; ring

end City.Props
