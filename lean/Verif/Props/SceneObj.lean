import Verif.Props.FileWrite
import Verif.Props.Scene3ds
import Verif.Props.Scene
/-!
Property C85: scenes in OBJ files. Further theorems for C34: which node is found, and all the meshes of a file.
-/
set_option exponentiation.threshold 2000
namespace City.Spec
open City

/-- What a mesh is for a scene: its name and its polygons, after a change of coordinates. -/
def namedPolygons (g : V3 ℚ → V3 ℚ) (m : Mesh) : Text × List (List (Option (V3 ℚ))) := (m.name, (polygons m).map (·.map (·.map g)))

/-- The nodes of a forest, each one before its children and these before its next siblings, with their kind and children. -/
def nodesIn : Forest → List (Text × Bool × Forest)
  | .nil => []
  | .cons n o ch nx => (n, o, ch) :: (nodesIn ch ++ nodesIn nx)

end City.Spec

namespace City.Props
open City Spec
variable {N L : Type}

/-! ### C85 -/

/-- C85 (full statement, false of the code): a scene written to an OBJ file is read back from it, with its buildings, its terrain, its position and its code. -/
def C85_full : Prop :=
  ∀ (N L : Type) (ops : NodeOps N) (lib : Libs L) (rnd : ℚ → ℚ) (lf : Bool) (wm rm : Modes) (p : Path) (fs : Fs) (s : Scene N) (names : List Text),
    IsRounding rnd → OpenedWrite wm → OpenedRead rm → Writable fs p → ObjReady (s.buildings.map ops.back ++ [ops.back s.terrain]) →
    ((s.buildings.map ops.back ++ [ops.back s.terrain]).map (·.name)).Nodup →
    ∃ bs t g, sceneRead ops lib rnd lf .obj rm p names (sceneWrite ops .obj wm p s fs).2 = .ok (Scene.make ops bs t s.pivot s.epsg) ∧
      (∀ m ∈ s.buildings.map ops.back ++ [ops.back s.terrain], ∀ q ∈ m.points, ReadBack rnd q (g q)) ∧
      bs.map (namedPolygons id) = (s.buildings.map ops.back).map (namedPolygons g) ∧ namedPolygons id t = namedPolygons g (ops.back s.terrain)

theorem named_id (m : Mesh) : namedPolygons id m = (m.name, polygons m) := by
  unfold namedPolygons
  congr 1
  have : (fun x : List (Option (V3 ℚ)) => x.map (·.map id)) = id := by
    funext x; simp
  rw [this, List.map_id]

theorem split_perm (tn : Text) (rs ms : List Mesh) (g : V3 ℚ → V3 ℚ) (h : (rs.map (namedPolygons id)).Perm (ms.map (namedPolygons g))) :
    ((rs.filter fun m => m.name ≠ tn).map (namedPolygons id)).Perm ((ms.filter fun m => m.name ≠ tn).map (namedPolygons g)) ∧
    ((rs.filter fun m => m.name = tn).map (namedPolygons id)).Perm ((ms.filter fun m => m.name = tn).map (namedPolygons g)) := by
  have h1 := h.filter (fun x => decide (x.1 ≠ tn))
  have h2 := h.filter (fun x => decide (x.1 = tn))
  rw [List.filter_map, List.filter_map] at h1 h2
  exact ⟨h1, h2⟩

/-- C85 (partial): a scene whose meshes have distinct one-word names and whose terrain is named "terrain", written to an OBJ file, is read from it: the file is the only one to
change; the buildings come back in the order of their names, with the same polygons; so does the terrain; coordinates are those printed.
Missing from the full property: the scene read has position (0, 0, 0) and code 2154; terrains with another name are buildings after. -/
theorem C85_round_trip_partial (ops : NodeOps N) (lib : Libs L) (rnd : ℚ → ℚ) (hr : ∀ n : ℕ, n ≤ 2 ^ 53 → rnd n = n) (lf : Bool) (wm rm : Modes) (p : Path) (fs : Fs)
    (s : Scene N) (names : List Text) (hw : OpenedWrite wm) (hm : OpenedRead rm) (hp : Writable fs p)
    (h : ObjReady (s.buildings.map ops.back ++ [ops.back s.terrain])) (hd : ((s.buildings.map ops.back ++ [ops.back s.terrain]).map (·.name)).Nodup) :
    ∃ fs', sceneWrite ops .obj wm p s fs = (.ok (), fs') ∧ (∀ q, q ≠ p → fs' q = fs q) ∧
      ∃ bs t g, sceneRead ops lib rnd lf .obj rm p names fs' = .ok (Scene.make ops bs t ⟨0, 0, 0⟩ 2154) ∧
        (∀ m ∈ s.buildings.map ops.back ++ [ops.back s.terrain], ∀ q ∈ m.points, ReadBack rnd q (g q)) ∧
        bs.Pairwise (fun a b => a.name < b.name) ∧ t.name = "terrain".toList ∧
        ((ops.back s.terrain).name = "terrain".toList →
          (bs.map (namedPolygons id)).Perm ((s.buildings.map ops.back).map (namedPolygons g)) ∧ namedPolygons id t = namedPolygons g (ops.back s.terrain)) ∧
        ("terrain".toList ∉ (s.buildings.map ops.back ++ [ops.back s.terrain]).map (·.name) →
          (bs.map (namedPolygons id)).Perm ((s.buildings.map ops.back ++ [ops.back s.terrain]).map (namedPolygons g)) ∧ polygons t = []) := by
  generalize hbs : s.buildings.map ops.back = B at h hd ⊢
  generalize htt : ops.back s.terrain = T at h hd ⊢
  obtain ⟨x, rs, g, h1, h2, h3, h4, h5, h6⟩ := C23_round_trip rnd hr (B ++ [T]) (by simp) h hd
  obtain ⟨w1, w2, -⟩ := (C82_obj_partial wm p (B ++ [T]) fs hw).1 (by simp)
  obtain ⟨⟨y, w3, w4⟩, w5⟩ := w2 hp
  rw [h1] at w3
  cases w3
  have e6 : (rs.map (namedPolygons id)).Perm ((B ++ [T]).map (namedPolygons g)) := by
    refine (List.Perm.of_eq (List.map_congr_left fun m _ => named_id m)).trans h6
  have hv : ∀ r ∈ rs, Valid r ∧ (r.points = [] → r.faces = []) := by
    intro r hr'
    refine ⟨(h4 r hr').1, fun he => ?_⟩
    by_contra hne
    obtain ⟨f, hf⟩ := List.exists_mem_of_ne_nil _ hne
    have hf0 : f.points = [] := by
      rw [List.eq_nil_iff_forall_not_mem]
      intro i hi
      have := (h4 r hr').1 f hf i hi
      rw [he] at this
      simp at this
    have hin : (r.name, polygons r) ∈ (B ++ [T]).map fun m => (m.name, (polygons m).map (·.map (·.map g))) :=
      h6.subset (List.mem_map.2 ⟨r, hr', rfl⟩)
    obtain ⟨m, hmm, hme⟩ := List.mem_map.1 hin
    have hpf : polygon r.points f ∈ (polygons m).map (·.map (·.map g)) := by
      have := (Prod.mk.inj hme).2
      rw [this]
      exact List.mem_map.2 ⟨f, hf, rfl⟩
    obtain ⟨q, hq, hqe⟩ := List.mem_map.1 hpf
    obtain ⟨f', hf', rfl⟩ := List.mem_map.1 hq
    have hl := congrArg List.length hqe
    simp only [List.length_map, polygon, hf0, List.length_nil] at hl
    have := h.degree m hmm f' hf'
    unfold Face.degree at this
    omega
  obtain ⟨s1, s2, s3, -, -⟩ := C29_separation "terrain".toList rs hv
  obtain ⟨b, tr, c1, c2⟩ := C29_scene ops rnd rm p (objWrite wm p (B ++ [T]) fs).2 x rs hm w4 h2
  rw [c1] at s1 s2 s3
  simp only at s1 s2 s3
  refine ⟨(objWrite wm p (B ++ [T]) fs).2, ?_, w5, b, tr, g, c2, h5, ?_, s2, ?_, ?_⟩
  · show objWrite wm p (s.buildings.map ops.back ++ [ops.back s.terrain]) fs = _
    rw [hbs, htt]
    exact Prod.ext w1 rfl
  · rw [s1]; exact h3.filter _
  · intro ht
    have hB : ∀ m ∈ B, m.name ≠ "terrain".toList := by
      intro m hmm he
      rw [List.map_append, List.nodup_append] at hd
      exact hd.2.2 m.name (List.mem_map.2 ⟨m, hmm, rfl⟩) T.name (by simp) (he.trans ht.symm)
    generalize "terrain".toList = tn at ht hB s1 s2 s3
    have f1 : B.filter (fun m => m.name ≠ tn) = B := List.filter_eq_self.2 (fun m hmm => decide_eq_true (hB m hmm))
    have f2 : [T].filter (fun m => m.name ≠ tn) = [] := by rw [List.filter_eq_nil_iff]; simp [ht]
    have f3 : B.filter (fun m => m.name = tn) = [] := List.filter_eq_nil_iff.2 (fun m hmm => by simpa using hB m hmm)
    have f4 : [T].filter (fun m => m.name = tn) = [T] := List.filter_eq_self.2 (by simp [ht])
    obtain ⟨k1, k2⟩ := split_perm tn rs (B ++ [T]) g e6
    rw [List.filter_append, f1, f2, List.append_nil] at k1
    rw [List.filter_append, f3, f4, List.nil_append, List.map_singleton, List.perm_singleton] at k2
    refine ⟨by rw [s1]; exact k1, ?_⟩
    have e7 : polygons tr = ((rs.filter (fun m => m.name = tn)).map (namedPolygons id)).flatMap (·.2) := by
      rw [s3, List.flatMap_map]
      apply List.flatMap_congr
      intro m _
      rw [named_id]
    rw [k2] at e7
    rw [named_id, s2, e7]
    unfold namedPolygons
    rw [ht]
    simp
  · intro hn
    generalize "terrain".toList = tn at hn s1 s2 s3
    have key : ∀ r ∈ rs, r.name ≠ tn := by
      intro r hr' he
      have : namedPolygons id r ∈ (B ++ [T]).map (namedPolygons g) := e6.subset (List.mem_map.2 ⟨r, hr', rfl⟩)
      obtain ⟨m, hmm, hme⟩ := List.mem_map.1 this
      apply hn
      refine List.mem_map.2 ⟨m, hmm, ?_⟩
      exact (congrArg Prod.fst hme).trans he
    constructor
    · rw [s1, List.filter_eq_self.2 (fun r hr' => by simpa using key r hr')]
      exact e6
    · rw [s3, List.filter_eq_nil_iff.2 (fun r hr' => by simpa using key r hr')]
      rfl

/-- A scene with two buildings and a terrain. -/
def sceneObjSample : Scene Mesh := ⟨⟨1, 2, 3⟩, 4326, sampleObj, (Mesh.make "terrain".toList [⟨0, 0, 0⟩, ⟨1, 0, 0⟩, ⟨1, 1, 0⟩] [⟨[0, 1, 2]⟩])⟩

/-- This scene meets the hypotheses of C85. -/
theorem sceneObjSample_ready : ObjReady (sceneObjSample.buildings.map plainOps.back ++ [plainOps.back sceneObjSample.terrain]) ∧
    ((sceneObjSample.buildings.map plainOps.back ++ [plainOps.back sceneObjSample.terrain]).map (·.name)).Nodup ∧
    (plainOps.back sceneObjSample.terrain).name = "terrain".toList ∧ Writable rootFs ["out.obj".toList] := by
  refine ⟨⟨?_, by decide, by decide, by unfold NoBlank; decide, by decide⟩, by decide, rfl, Or.inr ⟨by simp [rootFs], [], "out.obj".toList, rfl, rfl⟩⟩
  intro m hm q hq
  have hs := sampleObj_ready.1.finite
  simp only [sceneObjSample, plainOps, List.map_id, List.mem_append, List.mem_singleton, id] at hm
  rcases hm with hm | rfl
  · exact hs m hm q hq
  · simp only [Mesh.make, List.mem_cons, List.not_mem_nil, or_false] at hq
    rcases hq with rfl | rfl | rfl <;> simp [FinitePoint, dblMax] <;> norm_num

/-- C85 refuted: the scene read has another code. -/
theorem C85_refuted : ¬ C85_full := by
  intro h
  let lib : Libs Unit := ⟨fun _ => none, fun _ => [], fun _ => Mesh.empty, fun _ => none, fun _ => none, fun _ => none⟩
  let wm : Modes := fun k => if k = "write".toList then some true else none
  let rm : Modes := fun k => if k = "read".toList then some true else none
  have hw : OpenedWrite wm := by unfold OpenedWrite; decide
  have hr : OpenedRead rm := by unfold OpenedRead; decide
  obtain ⟨r1, r2, -, r4⟩ := sceneObjSample_ready
  obtain ⟨bs', t', g', h1, -⟩ := h Mesh Unit plainOps lib id true wm rm ["out.obj".toList] rootFs sceneObjSample [] isRounding_id hw hr r4 r1 r2
  obtain ⟨fs', h4, -, bs, t, g, h5, -⟩ := C85_round_trip_partial plainOps lib id (fun _ _ => rfl) true wm rm ["out.obj".toList] rootFs sceneObjSample [] hw hr r4 r1 r2
  rw [h4] at h1
  rw [h5] at h1
  have h6 : (2154 : ℕ) = 4326 := congrArg (fun x : Out (Scene Mesh) => match x with | .ok s => s.epsg | _ => 0) h1
  exact absurd h6 (by decide)

/-! ### C34 -/

/-- C34: the node found for a name is the first node of an object with this name, parents before children, these before the next siblings. -/
theorem C34_lookup (name : Text) (g : Forest) :
    T3ds.nodeByName name g = ((nodesIn g).find? fun x => x.2.1 && x.1 == name).map fun x => (x.1, x.2.2) := by
  induction g with
  | nil => rfl
  | cons n o ch nx ihc ihn =>
    have e : T3ds.nodeByName name (.cons n o ch nx) = if o && n == name then some (n, ch) else (T3ds.nodeByName name ch).or (T3ds.nodeByName name nx) := rfl
    have e' : nodesIn (.cons n o ch nx) = (n, o, ch) :: (nodesIn ch ++ nodesIn nx) := rfl
    rw [e, e', List.find?_cons]
    cases hc : (o && n == name)
    · simp only [Bool.false_eq_true, if_false]
      rw [List.find?_append, ihc, ihn, Option.map_or]
    · simp

/-- C34: all the meshes of a file are given, in the order of the file, to a handler opened for reading. -/
theorem C34_all (conv : L → Mesh) (modes : Modes) (f : File3ds L) (h : OpenedRead modes) :
    ∃ ms, T3ds.getMeshes conv modes (some f) = .ok ms ∧ ms.length = f.meshes.length ∧ ∀ (i : ℕ) (l : L), f.meshes[i]? = some l → ms[i]? = some (conv l) := by
  refine ⟨f.meshes.map conv, ?_, by simp, fun i l hl => by simp [hl]⟩
  unfold T3ds.getMeshes
  rw [if_pos (canRead_iff.2 h)]

/-- C34 (partial): the meshes returned for a name are those of the first object node with this name, and of the nodes under it; as many empty meshes come first.
Missing from the full property: "and nothing else". -/
theorem C34_first_partial (nm : L → Text) (conv : L → Mesh) (modes : Modes) (f : File3ds L) (name : Text) (types : List Char)
    (ch : Forest) (hr : OpenedRead modes) (ht : types.Nodup) (hn : (nodesIn f.nodes).find? (fun x => x.2.1 && x.1 == name) = some (name, true, ch)) :
    ∃ ms, T3ds.nodeMeshes nm conv modes (some f) name types = .ok (List.replicate ms.length Mesh.empty ++ ms) ∧
      ms.Perm ((matching nm f.meshes types (postOrder (.cons name true ch .nil))).map conv) :=
  C34_node_meshes_partial nm conv modes f name types ch hr ht (by rw [C34_lookup, hn]; rfl)

/-- C34: the single mesh of a name is made of the polygons of the first object node with this name and of the nodes under it. -/
theorem C34_first_mesh (nm : L → Text) (conv : L → Mesh) (modes : Modes) (f : File3ds L) (name : Text) (types : List Char)
    (ch : Forest) (hr : OpenedRead modes) (ht : types.Nodup) (hn : (nodesIn f.nodes).find? (fun x => x.2.1 && x.1 == name) = some (name, true, ch))
    (hv : ∀ l ∈ f.meshes, Valid (conv l) ∧ ((conv l).points = [] → (conv l).faces = [])) :
    ∃ m, T3ds.mesh nm conv modes (some f) name types = .ok m ∧ m.name = name ∧ Valid m ∧
      (polygons m).Perm ((matching nm f.meshes types (postOrder (.cons name true ch .nil))).flatMap fun l => polygons (conv l)) := by
  obtain ⟨m, h1, h2, h3, -, h5⟩ := C34_mesh nm conv modes f name types ch hr ht (by rw [C34_lookup, hn]; rfl) hv
  exact ⟨m, h1, h2, h3, h5⟩

/-- C34: a name without any object node, even if other nodes have it, is dereferenced as a null pointer. -/
theorem C34_no_object (nm : L → Text) (conv : L → Mesh) (modes : Modes) (f : File3ds L) (name : Text) (types : List Char)
    (hr : OpenedRead modes) (hn : ∀ ch, (name, true, ch) ∉ nodesIn f.nodes) :
    T3ds.nodeMeshes nm conv modes (some f) name types = .ub ∧ T3ds.mesh nm conv modes (some f) name types = .ub := by
  have : T3ds.nodeByName name f.nodes = none := by
    rw [C34_lookup, List.find?_eq_none.2, Option.map_none]
    rintro ⟨n, o, ch⟩ hx
    simp only [Bool.and_eq_true, beq_iff_eq, not_and]
    rintro rfl rfl
    exact hn ch hx
  exact C34_unknown_name nm conv modes f name types hr this

/-- Two object nodes and another one with the same name: the first object node is the one found, here inside another tree. -/
example : (nodesIn (.cons ['A'] false (.cons ['A'] true (.cons ['T'] true .nil .nil) .nil) (.cons ['A'] true .nil .nil))).find? (fun x => x.2.1 && x.1 == ['A']) =
    some (['A'], true, .cons ['T'] true .nil .nil) := by decide

end City.Props
