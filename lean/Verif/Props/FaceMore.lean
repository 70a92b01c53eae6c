import Verif.Props.Mesh
import Verif.Props.Face
import Verif.Props.Mesh3ds
/-!
Exact behaviour of face equality (C08) and of the limits of 3DS conversion (C17).
-/
set_option linter.unusedSectionVars false
namespace City.Props
open City Spec

/-- C08: exact behaviour of `==` on faces: true exactly when the second list, started at the FIRST occurrence of the first vertex of the first list, is the first
list; two empty faces throw, all other pairs have an answer; `!=` answers the opposite, on the swapped pair. -/
theorem C08_exact (f g : Face) :
    (Face.eq f g = .ok true ↔ ∃ a u v, g.points = u ++ a :: v ∧ a ∉ u ∧ f.points = a :: (v ++ u)) ∧
    ((∃ b, Face.eq f g = .ok b) ↔ ¬ (f.points = [] ∧ g.points = [])) ∧
    (Face.eq f g = .thrown .outOfRange ↔ f.points = [] ∧ g.points = []) ∧
    (∀ b, Face.ne f g = .ok b ↔ Face.eq g f = .ok (!b)) := by
  refine ⟨?_, ?_, ?_, ?_⟩
  · rw [face_eq_true_iff]
    constructor
    · rintro ⟨a, h1, h2, h3⟩
      obtain ⟨u, v, hg, hu⟩ := List.eq_append_cons_of_mem h2
      refine ⟨a, u, v, hg, hu, ?_⟩
      rw [h3, hg, List.idxOf_append_of_notMem hu]
      simp
    · rintro ⟨a, u, v, hg, hu, hf⟩
      refine ⟨a, by rw [hf]; rfl, by rw [hg]; simp, ?_⟩
      rw [hf, hg, List.idxOf_append_of_notMem hu]
      simp
  · unfold Face.eq
    split
    · rename_i hl
      split
      · rename_i h0
        have hg : g.points = [] := by
          rw [h0] at hl
          exact List.eq_nil_of_length_eq_zero hl.symm
        simp [h0, hg]
      · rename_i a t h0
        simp [h0]
    · rename_i hl
      simp only [Out.ok.injEq, exists_eq', true_iff, not_and]
      intro h1 h2
      exact hl (by rw [h1, h2])

  · unfold Face.eq
    split
    · rename_i hl
      split
      · rename_i h0
        have hg : g.points = [] := by
          rw [h0] at hl
          exact List.eq_nil_of_length_eq_zero hl.symm
        simp [h0, hg]
      · rename_i a t h0
        simp [h0]
    · rename_i hl
      simp only [reduceCtorEq, false_iff, not_and]
      intro h1 h2
      exact hl (by rw [h1, h2])
  · intro b
    unfold Face.ne
    cases h : Face.eq g f with
    | ok c => cases b <;> cases c <;> simp
    | thrown e => simp
    | ub => simp

/-- Equal as cycles, answered differently in the two directions: the first occurrence decides. -/
example : Face.eq ⟨[1, 2, 1, 3]⟩ ⟨[1, 3, 1, 2]⟩ = .ok false ∧ Face.eq ⟨[2, 1, 3, 1]⟩ ⟨[1, 3, 1, 2]⟩ = .ok true := by decide

theorem faceSlots_sum (fs : List Face) : faceSlots fs = (fs.map fun f => (f.degree : ℤ) - 2).sum := by
  induction fs with
  | nil => rfl
  | cons f fs ih =>
    rw [faceSlots_cons, ih, List.map_cons, List.sum_cons]
    unfold Face.degree
    ring

theorem fillSlots_ub_iff (co : List (V3 ℝ)) (n : ℤ) : ∀ (fs : List Face) (k : ℕ), fillSlots co n k fs = .ub ↔
    ∃ a f b, fs = a ++ f :: b ∧ (∀ g ∈ a ++ [f], ∃ ts, Face.to3ds g co = .ok ts) ∧ n ≤ ((k + a.length : ℕ) : ℤ) := by
  intro fs
  induction fs with
  | nil => intro k; simp [fillSlots]
  | cons f fs ih =>
    intro k
    constructor
    · intro h
      rw [fillSlots] at h
      rcases Out.bind_eq_ub.1 h with h | ⟨ts, hts, h⟩
      · exact absurd h (C10_errors f co).1
      · obtain ⟨a, b, c, t, t0, ts', -, rfl, -⟩ := to3ds_first hts
        rcases Out.bind_eq_ub.1 h with h | ⟨t', -, h⟩
        · simp [Out.idx] at h
        · split at h
          · rcases Out.bind_eq_ub.1 h with h | ⟨_, _, h⟩
            · obtain ⟨a, f', b, h1, h2, h3⟩ := (ih (k + 1)).1 h
              refine ⟨f :: a, f', b, by rw [h1]; rfl, ?_, ?_⟩
              · intro g hg
                rcases List.mem_cons.1 (by simpa using hg : g ∈ f :: (a ++ [f'])) with rfl | hg
                · exact ⟨_, hts⟩
                · exact h2 g hg
              · rw [List.length_cons]; push_cast at h3 ⊢; linarith
            · cases h
          · rename_i hk
            exact ⟨[], f, fs, rfl, by intro g hg; simp at hg; exact ⟨_, by rw [hg]; exact hts⟩, by simpa using hk⟩
    · rintro ⟨a, f', b, h1, h2, h3⟩
      obtain ⟨ts, hts⟩ : ∃ ts, Face.to3ds f co = .ok ts := by
        apply h2
        cases a with
        | nil => simp at h1; simp [h1.1]
        | cons x a => simp at h1; simp [h1.1]
      obtain ⟨_, _, _, _, t0, ts', -, rfl, -⟩ := to3ds_first hts
      rw [fillSlots, hts, Out.ok_bind]
      have : Out.idx (t0 :: ts') 0 = .ok t0 := rfl
      rw [this, Out.ok_bind]
      split
      · rename_i hk
        cases a with
        | nil => simp at h3; omega
        | cons x a =>
          simp only [List.cons_append, List.cons.injEq] at h1
          have := (ih (k + 1)).2 ⟨a, f', b, h1.2, fun g hg => h2 g (by simp at hg ⊢; tauto), by rw [List.length_cons] at h3; push_cast at h3 ⊢; linarith⟩
          rw [this]; rfl
      · rfl

/-- C17: exactly when the conversion is undefined: a name of 63 characters or more before its first NUL, more than 65535 points, or a face that can be converted, as all
those before it, for which there is no room: the room is the sum of the degrees minus two, which empty faces reduce. -/
theorem C17_exact (m : RMesh) :
    m.to3ds = .ub ↔ 63 ≤ (cName m.name).length ∨ 65536 ≤ m.points.length ∨
      ∃ a f b, m.faces = a ++ f :: b ∧ (∀ g ∈ a ++ [f], ∃ ts, Face.to3ds g m.points = .ok ts) ∧
        (m.faces.map fun f => (f.degree : ℤ) - 2).sum ≤ a.length := by
  unfold RMesh.to3ds
  split
  · rename_i h; simp [h]
  · rename_i h
    split
    · rename_i h'; simp [h']
    · rename_i h'
      simp only [h, h', false_or]
      rw [Out.bind_eq_ub]
      simp only [reduceCtorEq, and_false, exists_false, or_false]
      rw [fillSlots_ub_iff, faceSlots_sum]
      simp only [Nat.zero_add]

/-- C17: no face of degree below two: only the two limits of the format count. -/
theorem C17_exact_degrees (m : RMesh) (h : ∀ f ∈ m.faces, 3 ≤ f.degree) : m.to3ds = .ub ↔ ¬ Fits3ds m := by
  constructor
  · intro hu hf; exact C17_defined_partial m hf h hu
  · intro hf
    apply C17_undefined
    unfold Fits3ds at hf
    omega

/-- A triangle and an empty face: there is no room for the triangle. -/
example : (RMesh.to3ds ⟨['t'], [⟨0, 0, 0⟩, ⟨1, 0, 0⟩, ⟨0, 1, 0⟩], [⟨[0, 1, 2]⟩, ⟨[]⟩]⟩) = .ub := by
  rw [C17_exact]
  refine Or.inr (Or.inr ⟨[], ⟨[0, 1, 2]⟩, [⟨[]⟩], rfl, ?_, by simp [Face.degree]⟩)
  intro g hg
  obtain ⟨d, hd, -⟩ := C16_exact oneTri ⟨by decide, by simp [oneTri]⟩ (by
    intro f hf
    simp only [oneTri, List.mem_singleton] at hf; subst hf
    simp [Face.degree, oneTri]) (by
    intro f hf
    simp only [oneTri, List.mem_singleton] at hf; subst hf
    exact C09_triangle _ _ rfl (by simp [oneTri]))
  simp at hg
  subst hg
  unfold RMesh.to3ds at hd
  rw [if_neg (by decide), if_neg (by simp [oneTri])] at hd
  obtain ⟨ts, hts, -⟩ := Out.bind_eq_ok.1 hd
  have : fillSlots oneTri.points (faceSlots oneTri.faces) 0 oneTri.faces = fillSlots oneTri.points (faceSlots oneTri.faces) 0 [⟨[0, 1, 2]⟩] := rfl
  rw [this, fillSlots] at hts
  obtain ⟨x, hx, -⟩ := Out.bind_eq_ok.1 hts
  exact ⟨x, hx⟩

/-- What `==` on meshes does with the two lists of faces, for all faces: an answer unless both faces of some number are empty, and then `out_of_range`. -/
theorem facesEq_exact : ∀ (fs gs : List Face) (acc : Bool), fs.length = gs.length →
    (Mesh.facesEq fs gs acc = .ok true ↔ acc = true ∧ List.Forall₂ (fun f g => Face.eq f g = .ok true) fs gs) ∧
    ((∃ b, Mesh.facesEq fs gs acc = .ok b) ↔ ∀ p ∈ fs.zip gs, ¬ (p.1.points = [] ∧ p.2.points = [])) ∧
    (Mesh.facesEq fs gs acc = .thrown .outOfRange ↔ ∃ p ∈ fs.zip gs, p.1.points = [] ∧ p.2.points = [])
  | [], [], acc, _ => by simp [Mesh.facesEq]
  | [], _ :: _, _, h => by simp at h
  | _ :: _, [], _, h => by simp at h
  | f :: fs, g :: gs, acc, h => by
    have hl : fs.length = gs.length := by simpa using h
    have ex := C08_exact f g
    by_cases he : f.points = [] ∧ g.points = []
    · have ht := ex.2.2.1.2 he
      simp only [Mesh.facesEq, ht, Out.thrown_bind, List.zip_cons_cons, List.forall₂_cons, List.mem_cons]
      refine ⟨by simp, ⟨(by rintro ⟨b, hb⟩; cases hb), (fun hh => absurd he (hh (f, g) (Or.inl rfl)))⟩, by simp only [true_iff]; exact ⟨(f, g), Or.inl rfl, he⟩⟩
    · obtain ⟨b, hb⟩ := ex.2.1.2 he
      have ih := facesEq_exact fs gs (acc && b) hl
      simp only [Mesh.facesEq, hb, Out.ok_bind, List.zip_cons_cons, List.forall₂_cons, List.mem_cons, forall_eq_or_imp, exists_eq_or_imp, Out.ok.injEq]
      refine ⟨by rw [ih.1, Bool.and_eq_true, and_assoc], by rw [ih.2.1]; simp [he], by rw [ih.2.2]; simp [he]⟩

/-- C15: exact behaviour of `==` on all meshes. It is true exactly when the points are the same and each face of the second, begun at the first occurrence of
the first vertex of the face of the first, is that face; it throws `out_of_range` exactly when points and numbers of faces agree and two empty faces meet;
in all other cases it has an answer, and `!=` is the opposite on the same pair. -/
theorem C15_exact (l r : Mesh) :
    (Mesh.eq l r = .ok true ↔ l.points = r.points ∧
      List.Forall₂ (fun f g => ∃ a u v, g.points = u ++ a :: v ∧ a ∉ u ∧ f.points = a :: (v ++ u)) l.faces r.faces) ∧
    (Mesh.eq l r = .thrown .outOfRange ↔ l.points = r.points ∧ l.faces.length = r.faces.length ∧
      ∃ p ∈ l.faces.zip r.faces, p.1.points = [] ∧ p.2.points = []) ∧
    ((∃ b, Mesh.eq l r = .ok b) ∨ Mesh.eq l r = .thrown .outOfRange) ∧
    ∀ b, Mesh.ne l r = .ok b ↔ Mesh.eq l r = .ok (!b) := by
  have hfun : (fun f g : Face => ∃ a u v, g.points = u ++ a :: v ∧ a ∉ u ∧ f.points = a :: (v ++ u)) = fun f g => Face.eq f g = .ok true := by
    funext f g
    exact propext (C08_exact f g).1.symm
  rw [hfun]
  have hne : ∀ b, Mesh.ne l r = .ok b ↔ Mesh.eq l r = .ok (!b) := by
    intro b
    unfold Mesh.ne
    cases Mesh.eq l r with
    | ok x => cases x <;> cases b <;> simp
    | thrown e => simp
    | ub => simp
  refine ⟨?_, ?_, ?_, hne⟩
  all_goals unfold Mesh.eq
  · split
    · rename_i h
      split
      · rename_i hp
        rw [(facesEq_exact _ _ true h.2).1]
        simp [hp]
      · rename_i hp
        simp [hp]
    · rename_i h
      simp only [Out.ok.injEq, Bool.false_eq_true, false_iff, not_and]
      intro hp hf
      exact h ⟨by rw [hp], hf.length_eq⟩
  · split
    · rename_i h
      split
      · rename_i hp
        rw [(facesEq_exact _ _ true h.2).2.2]
        simp [hp, h.2]
      · rename_i hp
        simp [hp]
    · rename_i h
      simp only [reduceCtorEq, false_iff, not_and]
      intro hp hf
      exact absurd ⟨by rw [hp], hf⟩ h
  · split
    · rename_i h
      split
      · have hx := facesEq_exact l.faces r.faces true h.2
        by_cases hc : ∃ p ∈ l.faces.zip r.faces, p.1.points = [] ∧ p.2.points = []
        · exact Or.inr (hx.2.2.2 hc)
        · push Not at hc
          exact Or.inl (hx.2.1.2 fun p hp hh => hc p hp hh.1 hh.2)
      · exact Or.inl ⟨_, rfl⟩
    · exact Or.inl ⟨_, rfl⟩

example : Mesh.eq ⟨['a'], [⟨0, 0, 0⟩], [⟨[]⟩], Bbox.empty⟩ ⟨['b'], [⟨0, 0, 0⟩], [⟨[]⟩], Bbox.empty⟩ = .thrown .outOfRange := by decide +kernel
example : Mesh.eq ⟨['a'], [], [⟨[1, 2, 1, 3]⟩], Bbox.empty⟩ ⟨['b'], [], [⟨[1, 3, 1, 2]⟩], Bbox.empty⟩ = .ok false := by decide +kernel

end City.Props
