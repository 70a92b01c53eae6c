import Verif.Props.NodeBox
import Verif.Props.Surf
/-
C58: the numbers of the facets of a node through any sequence of operations on it.
-/
namespace City.Props
open City City.Spec City.V3
set_option linter.unusedSectionVars false

section
variable {K : Type} [Field K] [LinearOrder K] [IsStrictOrderedRing K]

/-- What is asked of CGAL for an operation: the normals computed by `prune` have the direction of the facets, and stitching the borders of a surface gives a surface. -/
def LawfulOp : NodeOp K → Prop
  | .prune nrm stitch => NormalLaw nrm ∧ ∀ T : Surf K, ValidSurf T → ValidSurf (stitch T)
  | _ => True

/-- The operations that number the facets. -/
def NodeOp.numbers : NodeOp K → Bool
  | .prune _ _ => true
  | .setFaceIds => true
  | _ => false

/-- The number of every facet is its position among the facets, counted from 0. -/
def FacesNumbered (n : UNode K) : Prop := ∀ (i f : Nat), n.surf.fs[i]? = some f → n.surf.fid f = i

theorem valid_fid {S : Surf K} (V : ValidSurf S) (g : Nat → Nat) : ValidSurf { S with fid := g } :=
  ⟨V.nodup, V.fnodup, V.next_mem, V.prev_mem, V.opp_mem, V.vert_mem, V.prev_next, V.next_prev, V.opp_opp, V.opp_ne, V.next_ne, V.two_ne, V.vert_ne, V.turn,
    V.face_mem, V.face_next, V.start_mem, V.face_start, V.one_cycle⟩

theorem op_history {o : NodeOp K} {n n' : UNode K} (L : LawfulOp o) (V : ValidSurf n.surf) (h : o.run n = .ok n') :
    ValidSurf n'.surf ∧ n'.name = n.name ∧ n'.ref = n.ref ∧ n'.epsg = n.epsg ∧ ((o.numbers = true ∨ FacesNumbered n) → FacesNumbered n') := by
  have move : ∀ A : Aff K, ValidSurf (n.affine A).surf := fun A =>
    ⟨V.nodup, V.fnodup, V.next_mem, V.prev_mem, V.opp_mem, V.vert_mem, V.prev_next, V.next_prev, V.opp_opp, V.opp_ne, V.next_ne, V.two_ne, V.vert_ne, V.turn,
      V.face_mem, V.face_next, V.start_mem, V.face_start, V.one_cycle⟩
  cases o with
  | translate v =>
    cases h
    exact ⟨move _, rfl, rfl, rfl, fun k => k.elim (fun k => absurd k (by simp [NodeOp.numbers])) id⟩
  | scale v =>
    cases h
    exact ⟨move _, rfl, rfl, rfl, fun k => k.elim (fun k => absurd k (by simp [NodeOp.numbers])) id⟩
  | affine v =>
    cases h
    exact ⟨move _, rfl, rfl, rfl, fun k => k.elim (fun k => absurd k (by simp [NodeOp.numbers])) id⟩
  | setFaceIds =>
    cases h
    exact ⟨valid_fid V _, rfl, rfl, rfl, fun _ => (C58_ids V.fnodup).1⟩
  | prune nrm stitch =>
    obtain ⟨Ln, Ls⟩ := L
    simp only [NodeOp.run, UNode.prune] at h
    obtain ⟨S, h1, h2⟩ := Out.bind_eq_ok.1 h
    cases h2
    have num := C58_prune stitch (fun T k => (Ls T k).fnodup) Ln V h1
    refine ⟨?_, rfl, rfl, rfl, fun _ => num.2⟩
    obtain ⟨T, h3, h4⟩ := Out.bind_eq_ok.1 h1
    cases h4
    rcases C59_prune_partial Ln V (n.surf.hs.length + 1) (by omega) with ⟨T', k1, _, k3, _⟩ | ⟨k1, _⟩
    · rw [h3] at k1
      cases k1
      exact valid_fid (Ls T k3) _
    · rw [h3] at k1
      cases k1

/-- C58: through any sequence of transformations, prunings and numberings of a node, as soon as one of them numbers the facets the number of every facet is its position, and it stays so;
the surface stays a surface, and the name, the reference point and the coordinate system are those of the beginning. -/
theorem C58_history : ∀ (ops : List (NodeOp K)) {n n' : UNode K}, (∀ o ∈ ops, LawfulOp o) → ValidSurf n.surf → runOps ops n = .ok n' →
    ValidSurf n'.surf ∧ n'.name = n.name ∧ n'.ref = n.ref ∧ n'.epsg = n.epsg ∧
      (((∃ o ∈ ops, NodeOp.numbers o = true) ∨ FacesNumbered n) → FacesNumbered n')
  | [], n, n', _, V, h => by
    cases h
    exact ⟨V, rfl, rfl, rfl, fun k => k.elim (fun ⟨_, k, _⟩ => by cases k) id⟩
  | o :: os, n, n', L, V, h => by
    obtain ⟨m, h1, h2⟩ := Out.bind_eq_ok.1 h
    obtain ⟨a1, a2, a3, a4, a5⟩ := op_history (L o (by simp)) V h1
    obtain ⟨b1, b2, b3, b4, b5⟩ := C58_history os (fun x k => L x (by simp [k])) a1 h2
    refine ⟨b1, b2.trans a2, b3.trans a3, b4.trans a4, fun k => b5 ?_⟩
    rcases k with ⟨x, k1, k2⟩ | k
    · rcases List.mem_cons.1 k1 with rfl | k1
      · exact .inr (a5 (.inl k2))
      · exact .inl ⟨x, k1, k2⟩
    · exact .inr (a5 (.inr k))
end

/-- A node read from a surface whose facets all have the number 7. -/
def numbered7 : UNode ℚ := UNode.make "a".toList ⟨0, 0, 0⟩ 2154 { tetra with fid := fun _ => 7 }

example : ¬ FacesNumbered numbered7 := by
  intro h
  exact absurd (h 0 0 (by decide +kernel)) (by decide +kernel)

example : ∀ (n' : UNode ℚ), runOps [.translate ⟨1, 2, 3⟩, .setFaceIds, .scale 2] numbered7 = .ok n' →
    FacesNumbered n' ∧ n'.surf.pt 0 = smul 2 (add (tetra.pt 0) ⟨1, 2, 3⟩) := by
  intro n' h
  refine ⟨(C58_history _ ?_ (valid_fid (checkSurf_valid (by decide +kernel) : ValidSurf tetra) _) h).2.2.2.2 (.inl ⟨.setFaceIds, by simp, rfl⟩), ?_⟩
  · intro o ho
    simp only [List.mem_cons, List.not_mem_nil, or_false] at ho
    rcases ho with rfl | rfl | rfl <;> trivial
  · cases h
    decide +kernel

end City.Props
