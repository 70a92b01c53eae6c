import Verif.Spec.Handlers
import Verif.Props.Mesh
import Verif.Props.Off
/-!
Properties C28, C29, C31, C32: modes of handlers, exclusion of the terrain, formats.
-/
set_option exponentiation.threshold 2000
namespace City.Props
open City Spec
variable {N L : Type}

theorem canRead_iff {m : Modes} : canRead m = true ↔ OpenedRead m := by
  unfold canRead OpenedRead
  cases m "read".toList <;> simp

theorem canSave_iff {m : Modes} : canSave m = true ↔ OpenedWrite m := by
  unfold canSave OpenedWrite
  cases m "write".toList <;> simp

theorem not_canRead {m : Modes} (h : ¬ OpenedRead m) : canRead m = false := by
  rw [← canRead_iff] at h; simpa using h

theorem not_canSave {m : Modes} (h : ¬ OpenedWrite m) : canSave m = false := by
  rw [← canSave_iff] at h; simpa using h

/-! ### C28 -/

/-- C28 (full statement, false of the code), writing: no operation writes through a handler not opened for writing. -/
def C28_full_write : Prop :=
  ∀ (N : Type) (ops : NodeOps N) (f : SceneFormat) (modes : Modes) (p : Path) (s : Scene N), ¬ OpenedWrite modes →
    RefusesWrite (sceneWrite ops f modes p s)

/-- C28 (full statement, false of the code), reading: reading a scene through a handler not opened for reading throws. -/
def C28_full_read : Prop :=
  ∀ (N L : Type) (ops : NodeOps N) (lib : Libs L) (f : SceneFormat) (modes : Modes) (p : Path) (names : List Text)
    (rnd : ℚ → ℚ) (lf : Bool) (fs : Fs), ¬ OpenedRead modes →
    ∃ e, sceneRead ops lib rnd lf f modes p names fs = .thrown e

/-- C28 refuted: writing an OFF scene without write access creates the directory before it throws. -/
theorem C28_refuted_write : ¬ C28_full_write := by
  intro h
  let fs : Fs := fun q => if q = [] then some .dir else none
  obtain ⟨e, he⟩ := h Unit ⟨fun _ _ _ => (), fun _ => Mesh.empty⟩ .off (fun _ => none) [['a']] ⟨⟨0, 0, 0⟩, 0, [], ()⟩
    (by simp [OpenedWrite]) fs
  have : (sceneWrite (⟨fun _ _ _ => (), fun _ => Mesh.empty⟩ : NodeOps Unit) .off (fun _ => none) [['a']]
      ⟨⟨0, 0, 0⟩, 0, [], ()⟩ fs).2 [['a']] = some .dir := by
    simp [sceneWrite, offSceneWrite, fs, offWriteAll, offWrite, canSave, Fs.set]
  rw [he] at this
  simp [fs] at this

/-- C28 refuted: reading a 3DS scene through a handler opened for writing dereferences a null pointer. -/
theorem C28_refuted_read : ¬ C28_full_read := by
  intro h
  let lib : Libs Unit := ⟨fun _ => none, fun _ => [], fun _ => Mesh.empty, fun _ => none, fun _ => none, fun _ => none⟩
  let modes : Modes := fun k => if k = "write".toList then some true else none
  obtain ⟨e, he⟩ := h Unit Unit ⟨fun _ _ _ => (), fun _ => Mesh.empty⟩ lib .t3ds modes [['a']] [] id true (fun _ => none)
    (by simp [OpenedRead, modes])
  have hr : canRead modes = false := by decide
  have hw : canSave modes = true := by decide
  simp [sceneRead, T3ds.construct, hr, hw, SceneTree.construct, Exc.isRuntime, t3dsScenePlain, T3ds.levelMeshes, T3ds.getNodes,
    T3ds.levelPasses] at he

/-- C28: all the reading operations of the handlers of single files throw, without looking at the files.
Missing from the full property: reading scenes in the 3DS formats, listing nodes and levels of a 3DS file. -/
theorem C28_read_partial (modes : Modes) (h : ¬ OpenedRead modes) (rnd : ℚ → ℚ) (lf : Bool) (p : Path) :
    ThrowsBlind (offRead rnd lf modes p) ∧ ThrowsBlind (objRead rnd modes p) ∧ ThrowsBlind (objSceneMeshes rnd modes p) ∧
    (∀ (α : Type) (dec : Text → Text → Out α), ThrowsBlind (gdalRead dec modes p)) ∧
    (∀ (N : Type) (ops : NodeOps N), ThrowsBlind (objSceneRead ops rnd modes p)) ∧
    (∀ (L : Type) (nm : L → Text) (conv : L → Mesh) (file : Option (File3ds L)) (name : Text) (types : List Char),
      (∃ e, T3ds.getMeshes conv modes file = .thrown e) ∧ (∃ e, T3ds.nodeMeshesByType nm conv modes file name types = .thrown e) ∧
      (∃ e, T3ds.nodeMeshes nm conv modes file name types = .thrown e) ∧
      (∃ e, T3ds.meshByType nm conv modes file name types = .thrown e) ∧
      (∃ e, T3ds.mesh nm conv modes file name types = .thrown e)) := by
  have hr := not_canRead h
  refine ⟨⟨.filesystemError, fun fs => ?_⟩, ⟨.filesystemError, fun fs => ?_⟩, ⟨.filesystemError, fun fs => ?_⟩,
    fun α dec => ⟨.filesystemError, fun fs => ?_⟩, fun N ops => ⟨.filesystemError, fun fs => ?_⟩, ?_⟩
  · simp [offRead, hr]
  · simp [objRead, hr]
  · simp [objSceneMeshes, objRead, hr]
  · simp [gdalRead, hr]
  · simp [objSceneRead, objSceneMeshes, objRead, hr]
  · intro L nm conv file name types
    refine ⟨⟨.filesystemError, ?_⟩, ⟨.filesystemError, ?_⟩, ⟨.filesystemError, ?_⟩, ⟨.filesystemError, ?_⟩,
      ⟨.filesystemError, ?_⟩⟩ <;>
    simp [T3ds.getMeshes, T3ds.nodeMeshesByType, T3ds.nodeMeshes, T3ds.meshByType, T3ds.mesh, hr]

/-- C28: reading an OFF scene without read access throws (after looking at the directory). -/
theorem C28_scene_off_read (modes : Modes) (h : ¬ OpenedRead modes) (ops : NodeOps N) (rnd : ℚ → ℚ) (lf : Bool) (p : Path)
    (names : List Text) (fs : Fs) : ∃ e, offSceneRead ops rnd lf modes p names fs = .thrown e := by
  have hr := not_canRead h
  unfold offSceneRead
  split
  · exact ⟨_, rfl⟩
  · cases names.filter (isBuildingFile p fs) with
    | nil => exact ⟨.filesystemError, by simp [offRead, hr]⟩
    | cons n ns => exact ⟨.filesystemError, by rw [Out.mapM_cons]; simp [offRead, hr]⟩

/-- C28: all the writing operations of the handlers of single files throw and change nothing, and so does writing a scene
except in the OFF format.
Missing from the full property: OFF scenes, see C28_off_directory. -/
theorem C28_write_partial (modes : Modes) (h : ¬ OpenedWrite modes) (p : Path) :
    (∀ m, RefusesWrite (offWrite modes p m)) ∧ (∀ ms, RefusesWrite (objWrite modes p ms)) ∧
    (∀ (α : Type) (enc : α → Path → Fs → Out Unit × Fs) (a : α), RefusesWrite (gdalWrite enc modes p a)) ∧
    (∀ (enc : List Mesh → Out Text) ms, RefusesWrite (T3ds.writeMeshes enc modes p ms)) ∧
    (∀ (N : Type) (ops : NodeOps N) (f : SceneFormat) s, f ≠ .off → RefusesWrite (sceneWrite ops f modes p s)) := by
  have hw := not_canSave h
  refine ⟨fun m fs => ⟨.filesystemError, ?_⟩, fun ms fs => ⟨.filesystemError, ?_⟩, fun α enc a fs => ⟨.filesystemError, ?_⟩,
    fun enc ms fs => ⟨.filesystemError, ?_⟩, fun N ops f s hf fs => ?_⟩
  · simp [offWrite, hw]
  · simp [objWrite, hw]
  · simp [gdalWrite, hw]
  · simp [T3ds.writeMeshes, hw]
  · cases f with
    | off => exact absurd rfl hf
    | obj => exact ⟨.filesystemError, by simp [sceneWrite, objWrite, hw]⟩
    | t3dsXml => exact ⟨_, rfl⟩
    | t3ds => exact ⟨_, rfl⟩

/-- C28: writing an OFF scene without write access throws, and the only change ever made is the creation of the
directory. -/
theorem C28_off_directory (modes : Modes) (h : ¬ OpenedWrite modes) (ops : NodeOps N) (p : Path) (s : Scene N) (fs : Fs) :
    ∃ e, sceneWrite ops .off modes p s fs = (.thrown e, fs) ∨ sceneWrite ops .off modes p s fs = (.thrown e, fs.set p .dir) := by
  have hw := not_canSave h
  have key : ∀ (ms : List Mesh) (fs : Fs), ms ≠ [] → offWriteAll modes p ms fs = (.thrown .filesystemError, fs) := by
    intro ms fs hne
    cases ms with
    | nil => exact absurd rfl hne
    | cons m ms => simp [offWriteAll, offWrite, hw]
  unfold sceneWrite offSceneWrite
  simp only
  split
  · split
    · exact ⟨_, Or.inr (key _ _ (by simp))⟩
    · exact ⟨_, Or.inl rfl⟩
  · exact ⟨_, Or.inl (key _ _ (by simp))⟩
  · exact ⟨_, Or.inl rfl⟩

/-- Modes meeting the hypotheses of C28: no access at all, and the other access only. -/
example : ¬ OpenedRead (fun k => if k = "write".toList then some true else none) ∧
    ¬ OpenedWrite (fun k => if k = "read".toList then some true else some false) := by
  constructor <;> simp [OpenedRead, OpenedWrite]

/-! ### C29 -/

theorem exclude_eq (n : Text) (ms : List Mesh) :
    excludeMesh n ms = (ms.filter (fun m => m.name != n), (Mesh.sumFrom Mesh.empty (ms.filter (fun m => m.name == n))).setName n) := by
  unfold excludeMesh stablePartition
  simp only [List.take_left', List.drop_left']
  congr 4
  funext m
  simp [bne]

/-- C29: the buildings are the meshes with another name, in order; the terrain has the excluded name, its polygons are
those of the excluded meshes in order, and together no polygon is lost, added or changed. -/
theorem C29_separation (n : Text) (ms : List Mesh) (hv : ∀ m ∈ ms, Valid m ∧ (m.points = [] → m.faces = [])) :
    (excludeMesh n ms).1 = ms.filter (fun m => m.name ≠ n) ∧
    (excludeMesh n ms).2.name = n ∧
    polygons (excludeMesh n ms).2 = (ms.filter (fun m => m.name = n)).flatMap polygons ∧
    Valid (excludeMesh n ms).2 ∧
    ((excludeMesh n ms).1.flatMap polygons ++ polygons (excludeMesh n ms).2).Perm (ms.flatMap polygons) := by
  rw [exclude_eq]
  have hs := C12_sum (ms.filter (fun m => m.name == n)) (fun m hm => hv m (List.mem_filter.1 hm).1)
  have e1 : ms.filter (fun m => m.name != n) = ms.filter (fun m => m.name ≠ n) := by
    apply List.filter_congr; intro m _; rw [Bool.eq_iff_iff]; simp [bne]
  have e2 : ms.filter (fun m => m.name == n) = ms.filter (fun m => m.name = n) := by
    apply List.filter_congr; intro m _; exact beq_eq_decide ..
  have hp : polygons ((Mesh.sumFrom Mesh.empty (ms.filter fun m => m.name == n)).setName n) =
      (ms.filter fun m => m.name = n).flatMap polygons := by
    rw [← e2]; exact hs.1
  refine ⟨e1, rfl, hp, hs.2.2, ?_⟩
  rw [hp, ← List.flatMap_append]
  apply List.Perm.flatMap_right
  have := List.filter_append_perm (fun m : Mesh => decide (m.name ≠ n)) ms
  rw [e1]
  convert this using 3
  funext m; simp

/-- C29: an OBJ file that can be read gives the scene of its meshes: buildings without the terrain, in the order of the file's
names, terrain named "terrain". -/
theorem C29_scene (ops : NodeOps N) (rnd : ℚ → ℚ) (modes : Modes) (p : Path) (fs : Fs) (t : Text) (ms : List Mesh)
    (hm : OpenedRead modes) (hf : fs p = some (.file t)) (hr : Obj.read rnd t = .ok ms) :
    ∃ b : List Mesh, ∃ tr : Mesh, excludeMesh "terrain".toList ms = (b, tr) ∧
      objSceneRead ops rnd modes p fs =
        .ok ⟨⟨0, 0, 0⟩, 2154, b.map fun m => ops.node m ⟨0, 0, 0⟩ 2154, ops.node tr ⟨0, 0, 0⟩ 2154⟩ := by
  refine ⟨_, _, rfl, ?_⟩
  have h1 : objRead rnd modes p fs = .ok ms := by
    unfold objRead; rw [if_pos (canRead_iff.2 hm), hf]; exact hr
  unfold objSceneRead objSceneMeshes
  rw [h1]
  rfl

example : (excludeMesh ['t'] [demoTri, demoSquare, demoTri]).1 = [demoSquare] ∧
    (excludeMesh ['t'] [demoTri, demoSquare, demoTri]).2.faces = [⟨[0, 1, 2]⟩, ⟨[3, 4, 5]⟩] := by decide

/-! ### C31 -/

/-- C31: by name, a handler is made exactly for the four formats, and exactly when the extension is right; OFF needs none.
In all the other cases runtime_error is thrown. -/
theorem C31_formats (p : Path) (f : Text) (h : SceneFormat) :
    (sceneHandlerNamed p f = .ok h ↔
      (f = "3DS XML".toList ∧ h = .t3dsXml ∧ iequals (extension p) ".3ds".toList) ∨
      (f = "3DS".toList ∧ h = .t3ds ∧ iequals (extension p) ".3ds".toList) ∨
      (f = "OFF".toList ∧ h = .off) ∨
      (f = "OBJ".toList ∧ h = .obj ∧ iequals (extension p) ".obj".toList)) ∧
    ((∀ h, sceneHandlerNamed p f ≠ .ok h) → sceneHandlerNamed p f = .thrown .runtimeError) := by
  by_cases h1 : f = "3DS XML".toList
  · subst h1
    have : sceneFormat "3DS XML".toList = .ok .t3dsXml := by decide
    unfold sceneHandlerNamed
    rw [this, Out.ok_bind]
    simp only [sceneHandler, checkExtension, formatExt, Out.atOr, supportedExtensions, SceneFormat.toNat, List.getElem?_cons_zero,
      Out.ok_bind]
    split
    · rename_i hx
      refine ⟨⟨fun hh => ?_, fun hh => ?_⟩, fun hh => absurd rfl (hh _)⟩
      · cases hh; exact Or.inl ⟨trivial, rfl, hx⟩
      · rcases hh with hh | hh | hh | hh
        · rw [hh.2.1]; rfl
        · exact absurd hh.1 (by decide)
        · exact absurd hh.1 (by decide)
        · exact absurd hh.1 (by decide)
    · rename_i hx
      refine ⟨⟨fun hh => by simp at hh, fun hh => ?_⟩, fun _ => rfl⟩
      · rcases hh with hh | hh | hh | hh
        · exact absurd hh.2.2 hx
        · exact absurd hh.1 (by decide)
        · exact absurd hh.1 (by decide)
        · exact absurd hh.1 (by decide)
  by_cases h2 : f = "3DS".toList
  · subst h2
    have : sceneFormat "3DS".toList = .ok .t3ds := by decide
    unfold sceneHandlerNamed
    rw [this, Out.ok_bind]
    simp only [sceneHandler, checkExtension, formatExt, Out.atOr, supportedExtensions, SceneFormat.toNat,
      List.getElem?_cons_succ, List.getElem?_cons_zero, Out.ok_bind]
    split
    · rename_i hx
      refine ⟨⟨fun hh => ?_, fun hh => ?_⟩, fun hh => absurd rfl (hh _)⟩
      · cases hh; exact Or.inr (Or.inl ⟨trivial, rfl, hx⟩)
      · rcases hh with hh | hh | hh | hh
        · exact absurd hh.1 (by decide)
        · rw [hh.2.1]; rfl
        · exact absurd hh.1 (by decide)
        · exact absurd hh.1 (by decide)
    · rename_i hx
      refine ⟨⟨fun hh => by simp at hh, fun hh => ?_⟩, fun _ => rfl⟩
      · rcases hh with hh | hh | hh | hh
        · exact absurd hh.1 (by decide)
        · exact absurd hh.2.2 hx
        · exact absurd hh.1 (by decide)
        · exact absurd hh.1 (by decide)
  by_cases h3 : f = "OFF".toList
  · subst h3
    have : sceneFormat "OFF".toList = .ok .off := by decide
    unfold sceneHandlerNamed
    rw [this, Out.ok_bind]
    refine ⟨⟨fun hh => ?_, fun hh => ?_⟩, fun hh => absurd rfl (hh _)⟩
    · cases hh; exact Or.inr (Or.inr (Or.inl ⟨rfl, rfl⟩))
    · rcases hh with hh | hh | hh | hh
      · exact absurd hh.1 (by decide)
      · exact absurd hh.1 (by decide)
      · rw [hh.2]; rfl
      · exact absurd hh.1 (by decide)
  by_cases h4 : f = "OBJ".toList
  · subst h4
    have : sceneFormat "OBJ".toList = .ok .obj := by decide
    unfold sceneHandlerNamed
    rw [this, Out.ok_bind]
    simp only [sceneHandler, checkExtension, formatExt, Out.atOr, supportedExtensions, SceneFormat.toNat,
      List.getElem?_cons_succ, List.getElem?_cons_zero, Out.ok_bind]
    split
    · rename_i hx
      refine ⟨⟨fun hh => ?_, fun hh => ?_⟩, fun hh => absurd rfl (hh _)⟩
      · cases hh; exact Or.inr (Or.inr (Or.inr ⟨trivial, rfl, hx⟩))
      · rcases hh with hh | hh | hh | hh
        · exact absurd hh.1 (by decide)
        · exact absurd hh.1 (by decide)
        · exact absurd hh.1 (by decide)
        · rw [hh.2.1]; rfl
    · rename_i hx
      refine ⟨⟨fun hh => by simp at hh, fun hh => ?_⟩, fun _ => rfl⟩
      · rcases hh with hh | hh | hh | hh
        · exact absurd hh.1 (by decide)
        · exact absurd hh.1 (by decide)
        · exact absurd hh.1 (by decide)
        · exact absurd hh.2.2 hx
  · have : sceneFormat f = .thrown .runtimeError := by
      unfold sceneFormat
      rw [if_neg]
      rw [List.idxOf_lt_length_iff]
      simp only [supportedFormats, List.mem_cons, List.not_mem_nil, or_false]
      tauto
    unfold sceneHandlerNamed
    rw [this, Out.thrown_bind]
    refine ⟨⟨fun hh => by simp at hh, fun hh => ?_⟩, fun _ => rfl⟩
    tauto

/-- C31: a file named a.OBJ is accepted for OBJ and refused for 3DS; any path for OFF. -/
example : sceneHandlerNamed ["a.OBJ".toList] "OBJ".toList = .ok .obj ∧
    sceneHandlerNamed ["a.OBJ".toList] "3DS".toList = .thrown .runtimeError ∧
    sceneHandlerNamed ["dir".toList] "OFF".toList = .ok .off ∧
    sceneHandlerNamed ["a.obj".toList] "PLY".toList = .thrown .runtimeError := by decide

/-- C31: writing in one of the 3DS formats is refused without touching the files, whatever the modes. -/
theorem C31_write_3ds (ops : NodeOps N) (modes : Modes) (p : Path) (s : Scene N) (fs : Fs) :
    sceneWrite ops .t3ds modes p s fs = (.thrown .logicError, fs) ∧
    sceneWrite ops .t3dsXml modes p s fs = (.thrown .logicError, fs) := ⟨rfl, rfl⟩

/-! ### C32 -/

/-- C32: a 3DS handler is made exactly when one of the two accesses is asked for and, for reading, the file exists; all the
other cases throw filesystem_error. -/
theorem C32_one_mode (load : Text → Option (File3ds L)) (modes : Modes) (p : Path) (fs : Fs) :
    ((∃ f, T3ds.construct load modes p fs = .ok f) ↔
      (OpenedRead modes ∧ ¬ OpenedWrite modes ∧ ∃ t, fs p = some (.file t)) ∨ (OpenedWrite modes ∧ ¬ OpenedRead modes)) ∧
    ((∀ f, T3ds.construct load modes p fs ≠ .ok f) → T3ds.construct load modes p fs = .thrown .filesystemError) ∧
    (∀ f, OpenedRead modes → T3ds.construct load modes p fs = .ok f → ∃ t, fs p = some (.file t) ∧ f = load t) := by
  rw [← canRead_iff, ← canSave_iff]
  unfold T3ds.construct
  cases canRead modes <;> cases canSave modes <;> simp
  cases hf : fs p with
  | none => simp
  | some e => cases e <;> simp

end City.Props
