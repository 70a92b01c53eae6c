import Verif.Props.Grammar
import Verif.Props.Obj
/-!
Property C81 for OBJ texts in which several objects have one name.
-/
namespace City.Props
open City City.Spec

/-- The polygons a section of an OBJ text describes. -/
def described (rnd : ℚ → ℚ) (vs : List (V3 ℚ)) (fs : List (List ℕ)) : List (List (Option (V3 ℚ))) :=
  fs.map (·.map fun i => (vs[i - 1]?).map (convert rnd))

/-- C81: of the objects of an OBJ text that have the same name the first one is read and the others are left out: there is one mesh for each name of the text,
with the polygons of the first object of that name. -/
theorem C81_obj_first (rnd : ℚ → ℚ) (hr : ∀ n : ℕ, n ≤ 2 ^ 53 → rnd n = n) (t : Text) (vs : List (V3 ℚ))
    (objs : List (Text × List (List ℕ))) (h : ObjText t vs objs) (hne : vs ≠ [] ∨ objs ≠ [])
    (hp : ∀ p ∈ vs, DecFinite p) (h3 : ∀ o ∈ objs, ∀ f ∈ o.2, 3 ≤ f.length)
    (hi : ∀ o ∈ objs, ∀ f ∈ o.2, ∀ i ∈ f, 1 ≤ i ∧ i ≤ vs.length) (hs : vs.length ≤ 2 ^ 53) :
    ∃ rs, Obj.read rnd t = .ok rs ∧ rs.Pairwise (fun a b => a.name < b.name) ∧
      (∀ r ∈ rs, Valid r ∧ ∃ a fs b, objs = a ++ (r.name, fs) :: b ∧ (∀ o ∈ a, o.1 ≠ r.name) ∧ polygons r = described rnd vs fs) ∧
      ∀ o ∈ objs, ∃ r ∈ rs, r.name = o.1 := by
  refine ⟨_, read_objText hr h hne hp h3 (fun o ho f hf i him => (hi o ho f hf i him).2) hs, ?_, ?_, ?_⟩
  · rw [List.pairwise_map]
    exact Obj.sorted_emplaceAll objs
  · intro r hrm
    obtain ⟨o, ho, rfl⟩ := List.mem_map.1 hrm
    have hob := Obj.mem_emplaceAll ho
    have hpoly := polygons_objMesh (P := ⟨0, 0, 0⟩ :: vs.map (convert rnd)) (o := o) (by
      intro is his i him
      simp only [List.length_cons, List.length_map]
      exact Nat.lt_succ_of_le (hi o hob is his i him).2)
    refine ⟨hpoly.2, ?_⟩
    have hf := find_emplaceAll o.1 objs
    have hfo : (Obj.emplaceAll objs).find? (fun y => y.1 == o.1) = some o := by
      have hsrt := Obj.sorted_emplaceAll objs
      generalize Obj.emplaceAll objs = L at hsrt ho
      clear hrm hf
      induction L with
      | nil => exact absurd ho List.not_mem_nil
      | cons a L ih =>
        rw [List.find?_cons]
        rcases List.mem_cons.1 ho with rfl | ho
        · simp
        · have hlt := (List.pairwise_cons.1 hsrt).1 o ho
          have : (a.1 == o.1) = false := by
            rw [beq_eq_false_iff_ne]
            intro e
            rw [e] at hlt
            exact lt_irrefl _ hlt
          rw [this]
          exact ih (List.pairwise_cons.1 hsrt).2 ho
    rw [hfo] at hf
    obtain ⟨-, a, b, hab, hno⟩ := List.find?_eq_some_iff_append.1 hf.symm
    refine ⟨a, o.2, b, hab, fun x hx e => ?_, ?_⟩
    · have := hno x hx
      simp only [objMesh, Mesh.make] at e
      simp [e] at this
    · rw [hpoly.1]
      unfold described
      apply List.map_congr_left
      intro is his
      apply List.map_congr_left
      intro i him
      obtain ⟨j, rfl⟩ : ∃ j, i = j + 1 := ⟨i - 1, by have := (hi o hob is his i him).1; omega⟩
      rw [List.getElem?_cons_succ, List.getElem?_map]
      rfl
  · intro o ho
    have hf := find_emplaceAll o.1 objs
    have : (objs.find? fun y => y.1 == o.1).isSome := by
      rw [List.find?_isSome]
      exact ⟨o, ho, by simp⟩
    rw [← hf] at this
    obtain ⟨x, hx⟩ := Option.isSome_iff_exists.1 this
    refine ⟨_, List.mem_map_of_mem (List.mem_of_find?_eq_some hx), ?_⟩
    have := List.find?_some hx
    simpa [objMesh, Mesh.make] using this

/-- C81: an OBJ text is read as what it says if and only if its objects have distinct names. -/
theorem C81_obj_exact (rnd : ℚ → ℚ) (hr : ∀ n : ℕ, n ≤ 2 ^ 53 → rnd n = n) (t : Text) (vs : List (V3 ℚ))
    (objs : List (Text × List (List ℕ))) (h : ObjText t vs objs) (hne : vs ≠ [] ∨ objs ≠ [])
    (hp : ∀ p ∈ vs, DecFinite p) (h3 : ∀ o ∈ objs, ∀ f ∈ o.2, 3 ≤ f.length)
    (hi : ∀ o ∈ objs, ∀ f ∈ o.2, ∀ i ∈ f, 1 ≤ i ∧ i ≤ vs.length) (hs : vs.length ≤ 2 ^ 53) :
    (∃ rs, Obj.read rnd t = .ok rs ∧ (rs.map fun r => (r.name, polygons r)).Perm (objs.map fun o => (o.1, described rnd vs o.2))) ↔
      (objs.map (·.1)).Nodup := by
  constructor
  · rintro ⟨rs, h1, h2⟩
    obtain ⟨rs', h3', h4, -⟩ := C81_obj_first rnd hr t vs objs h hne hp h3 hi hs
    rw [h1] at h3'
    cases h3'
    have h5 := h2.map Prod.fst
    rw [List.map_map, List.map_map] at h5
    refine (h5.nodup_iff).1 ?_
    refine List.Pairwise.map _ (fun a b hab => ?_) h4
    exact ne_of_lt hab
  · intro hd
    obtain ⟨rs, h1, -, -, h2⟩ := C81_obj_partial rnd hr t vs objs h hne hd hp h3 hi hs
    exact ⟨rs, h1, h2⟩

/-- A text of two objects with one name, which meets the hypotheses and is therefore not read as what it says. -/
theorem same_obj : ObjText "v +1e1 -.5\t2.\no b\nf  1 1 1\no b\n".toList [⟨10, -1 / 2, 2⟩] [("b".toList, [[1, 1, 1]]), ("b".toList, [])] := by
  refine ⟨["v +1e1 -.5\t2.".toList, "o b".toList, "f  1 1 1".toList, "o b".toList], ["v +1e1 -.5\t2.".toList],
    [("o b".toList, ["f  1 1 1".toList]), ("o b".toList, [])], ?_, by decide, ?_, ?_⟩
  · exact Lines.cons (l := "v +1e1 -.5\t2.".toList) (by decide)
      (Lines.cons (l := "o b".toList) (by decide) (Lines.cons (l := "f  1 1 1".toList) (by decide) (Lines.cons (l := "o b".toList) (by decide) .nil)))
  · exact .cons ⟨' ', _, by decide, rfl, sample_point⟩ .nil
  · have hb : Words "b".toList ["b".toList] :=
      Words.cons (b := []) (w := "b".toList) (r := []) (by decide) (by decide) (by decide) (by simp) (.nil (by simp))
    exact .cons ⟨⟨' ', "b".toList, by decide, rfl, hb⟩, .cons ⟨' ', " 1 1 1".toList, by decide, rfl, natLine_natTexts [1, 1, 1]⟩ .nil⟩
      (.cons ⟨⟨' ', "b".toList, by decide, rfl, hb⟩, .nil⟩ .nil)

example : ¬ ∃ rs, Obj.read _root_.id "v +1e1 -.5\t2.\no b\nf  1 1 1\no b\n".toList = .ok rs ∧
    (rs.map fun r => (r.name, polygons r)).Perm
      ([("b".toList, [[1, 1, 1]]), ("b".toList, [])].map fun o => (o.1, described _root_.id [⟨10, -1 / 2, 2⟩] o.2)) := by
  have b : ∀ q : ℚ, |q| ≤ 2 ^ 53 → |q| < dblOverflow := fun q h => lt_of_le_of_lt h dblOverflow_big
  rw [C81_obj_exact _root_.id (fun n _ => rfl) _ _ _ same_obj (Or.inl (by simp)) (by
    intro p hp
    simp only [List.mem_cons, List.not_mem_nil, or_false] at hp
    subst hp
    refine ⟨b _ ?_, b _ ?_, b _ ?_⟩
    · norm_num
    · rw [abs_le]; norm_num
    · norm_num) (by decide) (by decide) (by decide)]
  decide

end City.Props
