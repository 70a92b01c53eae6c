import Verif.Props.SceneObj
import Verif.Props.ObjNames
/-!
Property C85 for scenes whose names have any number of words, and names that begin with the same word.
-/
set_option exponentiation.threshold 2000
namespace City.Spec
open City

/-- The polygons of the first mesh of the list whose name begins with the word `w`, after a change of coordinates; none if there is no such mesh. -/
def firstWith (g : V3 ℚ → V3 ℚ) (w : Text) (ms : List Mesh) : Option (List (List (Option (V3 ℚ)))) :=
  (ms.find? fun m => wordOf m.name == w).map fun m => (polygons m).map (·.map (·.map g))

/-- The polygons of the mesh with the name `n`; none if there is no such mesh. -/
def called (n : Text) (ms : List Mesh) : Option (List (List (Option (V3 ℚ)))) := (ms.find? fun m => m.name == n).map polygons

end City.Spec

namespace City.Props
open City Spec
variable {N L : Type}

/-- A mesh with the polygons of a valid mesh whose faces are not empty is valid. -/
theorem valid_of_polygons {r m : Mesh} {g : V3 ℚ → V3 ℚ} (h : polygons r = (polygons m).map (·.map (·.map g))) (hv : Valid m)
    (hd : ∀ f ∈ m.faces, 3 ≤ f.degree) : Valid r ∧ (r.points = [] → r.faces = []) := by
  have key : ∀ f ∈ r.faces, (∀ x ∈ polygon r.points f, x ≠ none) ∧ 3 ≤ f.points.length := by
    intro f hf
    have : polygon r.points f ∈ (polygons m).map (·.map (·.map g)) := by rw [← h]; exact List.mem_map.2 ⟨f, hf, rfl⟩
    obtain ⟨q, hq, hqe⟩ := List.mem_map.1 this
    obtain ⟨f', hf', rfl⟩ := List.mem_map.1 hq
    constructor
    · rw [← hqe]
      intro x hx
      obtain ⟨y, hy, rfl⟩ := List.mem_map.1 hx
      obtain ⟨i, hi, rfl⟩ := List.mem_map.1 hy
      have := hv f' hf' i hi
      simp [this]
    · have hl := congrArg List.length hqe
      simp only [List.length_map, polygon] at hl
      have := hd f' hf'
      unfold Face.degree at this
      omega
  have hV : Valid r := by
    intro f hf i hi
    have := (key f hf).1 _ (List.mem_map.2 ⟨i, hi, rfl⟩)
    by_contra hn
    exact this (List.getElem?_eq_none (by omega))
  refine ⟨hV, fun he => ?_⟩
  by_contra hne
  obtain ⟨f, hf⟩ := List.exists_mem_of_ne_nil _ hne
  have h3 := (key f hf).2
  obtain ⟨i, hi⟩ := List.exists_mem_of_length_pos (l := f.points) (by omega)
  have := hV f hf i hi
  rw [he] at this
  simp at this

/-- In a list with strictly increasing names at most one mesh has a given name. -/
theorem filter_of_find {rs : List Mesh} (h : rs.Pairwise (fun a b => a.name < b.name)) (n : Text) :
    rs.filter (fun m => m.name = n) = (rs.find? fun m => m.name == n).toList := by
  induction rs with
  | nil => rfl
  | cons r rs ih =>
    rw [List.pairwise_cons] at h
    by_cases e : r.name = n
    · rw [List.filter_cons_of_pos (by simpa using e), List.find?_cons_of_pos (by simpa using e)]
      rw [List.filter_eq_nil_iff.2]
      · rfl
      · intro m hm he
        have := h.1 m hm
        simp only [decide_eq_true_eq] at he
        rw [he, e] at this
        exact lt_irrefl _ this
    · rw [List.filter_cons_of_neg (by simpa using e), List.find?_cons_of_neg (by simpa using e)]
      exact ih h.2

/-- C85 (partial), for names of any number of words, also the same ones: writing succeeds, only the file changes, and what is read has for each first word
other than `terrain` one building with the polygons of the FIRST mesh of the scene whose name begins with this word (buildings in their order, then the
terrain), and the terrain of what is read has the polygons of the first mesh whose name begins with the word `terrain`, which need not be the terrain.
Missing from the full property: the names after their first word, the other meshes with the same first word, position and code. -/
theorem C85_words_partial (ops : NodeOps N) (lib : Libs L) (rnd : ℚ → ℚ) (hr : ∀ n : ℕ, n ≤ 2 ^ 53 → rnd n = n) (lf : Bool) (wm rm : Modes) (p : Path) (fs : Fs)
    (s : Scene N) (names : List Text) (hw : OpenedWrite wm) (hm : OpenedRead rm) (hp : Writable fs p)
    (h : ObjHolds (s.buildings.map ops.back ++ [ops.back s.terrain]))
    (hn : ∀ m ∈ s.buildings.map ops.back ++ [ops.back s.terrain], HarmlessName m.name) :
    ∃ fs', sceneWrite ops .obj wm p s fs = (.ok (), fs') ∧ (∀ q, q ≠ p → fs' q = fs q) ∧
      ∃ bs t g, sceneRead ops lib rnd lf .obj rm p names fs' = .ok (Scene.make ops bs t ⟨0, 0, 0⟩ 2154) ∧
        (∀ m ∈ s.buildings.map ops.back ++ [ops.back s.terrain], ∀ q ∈ m.points, ReadBack rnd q (g q)) ∧
        bs.Pairwise (fun a b => a.name < b.name) ∧ t.name = "terrain".toList ∧
        called "terrain".toList bs = none ∧
        (∀ n, n ≠ "terrain".toList → called n bs = firstWith g n (s.buildings.map ops.back ++ [ops.back s.terrain])) ∧
        polygons t = (firstWith g "terrain".toList (s.buildings.map ops.back ++ [ops.back s.terrain])).getD [] := by
  generalize hbs : s.buildings.map ops.back = B at h hn ⊢
  generalize htt : ops.back s.terrain = T at h hn ⊢
  obtain ⟨x, rs, g, h1, h2, h3, h5, h6⟩ := C23_words rnd hr (B ++ [T]) (by simp) h hn
  obtain ⟨w1, w2, -⟩ := (C82_obj_partial wm p (B ++ [T]) fs hw).1 (by simp)
  obtain ⟨⟨y, w3, w4⟩, w5⟩ := w2 hp
  rw [h1] at w3
  cases w3
  have hone : ∀ r ∈ rs, (rs.find? fun m => m.name == r.name) = some r := by
    intro r hr'
    have := filter_of_find h3 r.name
    have hin : r ∈ rs.filter (fun m => m.name = r.name) := List.mem_filter.2 ⟨hr', by simp⟩
    rw [this] at hin
    exact Option.mem_toList.1 hin
  have hv : ∀ r ∈ rs, Valid r ∧ (r.points = [] → r.faces = []) := by
    intro r hr'
    have e := h6 r.name
    rw [hone r hr', Option.map_some] at e
    obtain ⟨m, hmm, hme⟩ := Option.map_eq_some_iff.1 e.symm
    have hin := List.mem_of_find?_eq_some hmm
    exact valid_of_polygons hme.symm (h.valid m hin) (h.degree m hin)
  obtain ⟨s1, s2, s3, -, -⟩ := C29_separation "terrain".toList rs hv
  obtain ⟨b, tr, c1, c2⟩ := C29_scene ops rnd rm p (objWrite wm p (B ++ [T]) fs).2 x rs hm w4 h2
  rw [c1] at s1 s2 s3
  simp only at s1 s2 s3
  generalize "terrain".toList = tn at s1 s2 s3
  refine ⟨(objWrite wm p (B ++ [T]) fs).2, ?_, w5, b, tr, g, c2, h5, ?_, s2, ?_, ?_, ?_⟩
  · show objWrite wm p (s.buildings.map ops.back ++ [ops.back s.terrain]) fs = _
    rw [hbs, htt]
    exact Prod.ext w1 rfl
  · rw [s1]; exact h3.filter _
  · unfold called
    rw [Option.map_eq_none_iff, List.find?_eq_none]
    intro m hmm
    rw [s1] at hmm
    have := (List.mem_filter.1 hmm).2
    simpa using this
  · intro n hne
    unfold called firstWith
    rw [← h6 n, s1, List.find?_filter]
    congr 2
    funext m
    by_cases e : m.name = n
    · simp [e, hne]
    · simp [e]
  · rw [s3, filter_of_find h3 tn]
    unfold firstWith
    rw [← h6 tn]
    cases rs.find? fun m => m.name == tn <;> simp

/-- A scene with a building that is named `terrain annex`. -/
def annexScene : Scene Mesh := ⟨⟨0, 0, 0⟩, 2154, [Mesh.make "terrain annex".toList [⟨0, 0, 9⟩, ⟨1, 0, 9⟩, ⟨1, 1, 9⟩] [⟨[0, 1, 2]⟩]],
  Mesh.make "terrain".toList [⟨0, 0, 0⟩, ⟨1, 0, 0⟩, ⟨1, 1, 0⟩] [⟨[0, 1, 2]⟩]⟩

/-- It meets the hypotheses of C85_words_partial. -/
theorem annexScene_holds : ObjHolds (annexScene.buildings.map plainOps.back ++ [plainOps.back annexScene.terrain]) ∧
    ∀ m ∈ annexScene.buildings.map plainOps.back ++ [plainOps.back annexScene.terrain], HarmlessName m.name := by
  refine ⟨⟨?_, by decide, by decide, by decide⟩, ?_⟩
  · intro m hm q hq
    simp only [annexScene, plainOps, List.map_id, List.mem_append, List.mem_cons, List.not_mem_nil, or_false, id] at hm
    rcases hm with rfl | rfl <;>
    · simp only [Mesh.make, List.mem_cons, List.not_mem_nil, or_false] at hq
      rcases hq with rfl | rfl | rfl <;> simp [FinitePoint, dblMax] <;> norm_num
  · intro m hm a b e
    exfalso
    have hin : '\n' ∈ m.name := by rw [e]; simp
    have no : ∀ m ∈ annexScene.buildings.map plainOps.back ++ [plainOps.back annexScene.terrain], '\n' ∉ m.name := by decide
    exact no m hm hin

/-- C85: a scene whose terrain is lost although all the names are different: the building named `terrain annex` is read as the terrain and there is no building. -/
theorem C85_annex_refuted (lib : Libs L) (lf : Bool) (wm rm : Modes) (names : List Text) (hw : OpenedWrite wm) (hm : OpenedRead rm) :
    ∃ fs', sceneWrite plainOps .obj wm ["out.obj".toList] annexScene rootFs = (.ok (), fs') ∧
      ∃ bs t, sceneRead plainOps lib id lf .obj rm ["out.obj".toList] names fs' = .ok (Scene.make plainOps bs t ⟨0, 0, 0⟩ 2154) ∧ bs = [] ∧
        ∃ g : V3 ℚ → V3 ℚ, ReadBack id ⟨0, 0, 9⟩ (g ⟨0, 0, 9⟩) ∧ polygons t = [[some (g ⟨0, 0, 9⟩), some (g ⟨1, 0, 9⟩), some (g ⟨1, 1, 9⟩)]] := by
  obtain ⟨fs', h1, -, bs, t, g, h2, h3, h4, -, h6, h7, h8⟩ := C85_words_partial plainOps lib id (fun _ _ => rfl) lf wm rm ["out.obj".toList] rootFs annexScene names
    hw hm (Or.inr ⟨by simp [rootFs], [], "out.obj".toList, rfl, rfl⟩) annexScene_holds.1 annexScene_holds.2
  refine ⟨fs', h1, bs, t, h2, ?_, g, ?_, ?_⟩
  · rcases bs with _ | ⟨b, bs⟩
    · rfl
    · exfalso
      by_cases e : b.name = "terrain".toList
      · unfold called at h6
        rw [List.find?_cons_of_pos (by simpa using e)] at h6
        cases h6
      · have := h7 _ e
        unfold called firstWith at this
        rw [List.find?_cons_of_pos (by simp), List.find?_eq_none.2] at this
        · cases this
        · intro m hm' he
          apply e
          simp only [beq_iff_eq] at he
          rw [← he]
          have : ∀ m ∈ annexScene.buildings.map plainOps.back ++ [plainOps.back annexScene.terrain], wordOf m.name = "terrain".toList := by decide
          exact this m hm'
  · exact h3 (Mesh.make "terrain annex".toList [⟨0, 0, 9⟩, ⟨1, 0, 9⟩, ⟨1, 1, 9⟩] [⟨[0, 1, 2]⟩]) (List.mem_append_left _ (List.mem_singleton.2 rfl)) _
      (List.mem_cons_self ..)
  · rw [h8]
    have : (annexScene.buildings.map plainOps.back ++ [plainOps.back annexScene.terrain]).find? (fun m => wordOf m.name == "terrain".toList) =
        some (Mesh.make "terrain annex".toList [⟨0, 0, 9⟩, ⟨1, 0, 9⟩, ⟨1, 1, 9⟩] [⟨[0, 1, 2]⟩]) := by
      refine (List.find?_cons_of_pos (by decide))
    unfold firstWith
    rw [this]
    rfl

end City.Props
