import Verif.Spec.Mesh
import Verif.Lemmas.Face
import Verif.Lemmas.Bbox
namespace City
open Spec

theorem ptReal_toDbl (p : V3 ℚ) : PtReal p.toDbl := by simp [PtReal, V3.toDbl]

theorem boxFresh_make (n : Text) (ps : List (V3 ℚ)) (fs : List Face) : BoxFresh (Mesh.make n ps fs) := by
  apply tight_ofPoints
  intro p hp
  obtain ⟨q, -, rfl⟩ := List.mem_map.1 hp
  exact ptReal_toDbl q

theorem append_of_empty {m o : Mesh} (h : m.points = []) : m.append o = m.assign o := by
  simp [Mesh.append, Mesh.isEmpty, h]

theorem append_of_nonempty {m o : Mesh} (h : m.points ≠ []) : m.append o =
    { name := m.name ++ ('_' :: o.name), bbox := m.bbox.union o.bbox, points := m.points ++ o.points,
      faces := m.faces ++ o.faces.map (fun f => f.offset m.points.length) } := by
  simp [Mesh.append, Mesh.isEmpty, h]

theorem polygon_append_left {α : Type} {ps qs : List α} {f : Face} (h : ∀ i ∈ f.points, i < ps.length) :
    polygon (ps ++ qs) f = polygon ps f := by
  apply List.map_congr_left
  intro i hi
  exact List.getElem?_append_left (h i hi)

theorem polygon_append_offset {α : Type} (ps qs : List α) (f : Face) :
    polygon (ps ++ qs) (f.offset ps.length) = polygon qs f := by
  simp only [polygon, Face.offset, List.map_map]
  apply List.map_congr_left
  intro i _
  show (ps ++ qs)[i + ps.length]? = qs[i]?
  rw [List.getElem?_append_right (by omega), Nat.add_sub_cancel]

theorem polygon_none_free {m : Mesh} (h : Valid m) :
    ∀ p ∈ polygons m, ∀ x ∈ p, x ≠ none := by
  intro p hp x hx
  simp only [polygons, List.mem_map] at hp
  obtain ⟨f, hf, rfl⟩ := hp
  simp only [polygon, List.mem_map] at hx
  obtain ⟨i, hi, rfl⟩ := hx
  simp [h f hf i hi]

theorem facesEq_iff {fs gs : List Face} {acc : Bool} (hl : fs.length = gs.length) (hne : ∀ f ∈ fs, f.points ≠ []) :
    (∃ b, Mesh.facesEq fs gs acc = .ok b) ∧
    (Mesh.facesEq fs gs acc = .ok true ↔ acc = true ∧ List.Forall₂ (fun f g => Face.eq f g = .ok true) fs gs) := by
  induction fs generalizing gs acc with
  | nil =>
    cases gs with
    | nil => simp [Mesh.facesEq]
    | cons g gs => simp at hl
  | cons f fs ih =>
    cases gs with
    | nil => simp at hl
    | cons g gs =>
      obtain ⟨b, hb⟩ := face_eq_ok (f := f) (g := g) (hne f (by simp))
      simp only [Mesh.facesEq, hb, Out.ok_bind, List.forall₂_cons, Out.ok.injEq]
      have := ih (gs := gs) (acc := acc && b) (by simpa using hl) (fun f hf => hne f (by simp [hf]))
      refine ⟨this.1, ?_⟩
      rw [this.2, Bool.and_eq_true, and_assoc]

end City
