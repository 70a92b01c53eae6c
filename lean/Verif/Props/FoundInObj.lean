import Verif.Props.Converted
import Verif.Props.ObjNames
import Verif.Props.Convey
/-!
C124: who reads the OBJ file that cityformat has made finds the objects of the scene in it: which ones, and when all of them.
-/
set_option linter.unusedSectionVars false
set_option exponentiation.threshold 2000
namespace City.Spec
open City City.Props

/-- The meshes `rs` read from a file contain the object `m`: its name and its polygons, with the coordinates as they were printed. -/
def FindsObject (g : V3 ℚ → V3 ℚ) (rs : List Mesh) (m : Mesh) : Prop := ∃ r ∈ rs, r.name = m.name ∧ polygons r = (polygons m).map (·.map (·.map g))

/-- `m` is the first object of the list whose name begins with the word `w`. -/
def FirstWith (ms : List Mesh) (w : Text) (m : Mesh) : Prop := ∃ before after, ms = before ++ m :: after ∧ wordOf m.name = w ∧ ∀ k ∈ before, wordOf k.name ≠ w

end City.Spec

namespace City.Props
open City City.Spec

section
variable {N L K : Type} [Field K] [LinearOrder K] [FloorRing K]

/-- There is one scene that is converted. -/
theorem converted_one {T : Toolbox N L K} {a : FormatArgs} {fs : Fs} {s s' : Scene N} (h : ConvertedScene T a fs s) (h' : ConvertedScene T a fs s') : s = s' := by
  obtain ⟨F, s₀, h1, h2, h3⟩ := h
  obtain ⟨F', s₀', h1', h2', h3'⟩ := h'
  have e := Out.ok.inj (h1.symm.trans h1')
  subst e
  have e := Out.ok.inj (h2.symm.trans h2')
  subst e
  by_cases hp : a.prune = true
  · rw [if_pos hp] at h3 h3'
    exact Out.ok.inj (h3.symm.trans h3')
  · rw [if_neg hp] at h3 h3'
    rw [h3, h3']

theorem find_first {ms : List Mesh} {w : Text} {m : Mesh} (h : ms.find? (fun m => wordOf m.name == w) = some m) : FirstWith ms w m := by
  rw [List.find?_eq_some_iff_append] at h
  obtain ⟨hw, b, c, e, hb⟩ := h
  exact ⟨b, c, e, by simpa using hw, fun k hk => by simpa using hb k hk⟩

/-- C124: after a conversion to an OBJ file without complaint, the file is read, for names of any number of words: each mesh in it is the first object
of the scene whose name begins with the name of the mesh, and each object has a mesh called as the first word of its name. -/
theorem C124_words (T : Toolbox N L K) (hr : ∀ n : ℕ, n ≤ 2 ^ 53 → T.rnd n = n) (noise : SceneFormat → Bool → Path → Fs → List Text) (args : Args) (fs : Fs) (a : FormatArgs)
    (ha : formatArgs args = .ok a) (hn : a.formats = false) (ho : a.outFormat = "OBJ".toList) (hw : Writable fs a.outPath)
    (hu : (mainTalk (formatTalk T noise args) fs).1 ≠ .ub) (he : errors (mainTalk (formatTalk T noise args) fs).2.2 = [])
    (s : Scene N) (hs : ConvertedScene T a fs s) (hh : ObjHolds (objectsOf T s)) (hl : ∀ m ∈ objectsOf T s, HarmlessName m.name) :
    ∃ x rs g, (mainTalk (formatTalk T noise args) fs).2.1 a.outPath = some (.file x) ∧ Obj.read T.rnd x = .ok rs ∧
      (∀ m ∈ objectsOf T s, ∀ p ∈ m.points, ReadBack T.rnd p (g p)) ∧ (rs.map Mesh.name).Nodup ∧
      (∀ r ∈ rs, ∃ m, FirstWith (objectsOf T s) r.name m ∧ polygons r = (polygons m).map (·.map (·.map g))) ∧
      (∀ m ∈ objectsOf T s, ∃ r ∈ rs, r.name = wordOf m.name) := by
  obtain ⟨s', x, h1, h2, h3⟩ := C123_obj T noise args fs a ha hn ho hw hu he
  have e := converted_one hs h1
  subst e
  obtain ⟨t, rs, g, k1, k2, k3, k4, k5⟩ := C23_words T.rnd hr (objectsOf T s) (by simp [objectsOf]) hh hl
  have e := Out.ok.inj (h2.symm.trans k1)
  subst e
  have hnd : (rs.map Mesh.name).Nodup := by
    unfold List.Nodup
    rw [List.pairwise_map]
    exact k3.imp fun hlt => ne_of_lt hlt
  refine ⟨x, rs, g, h3, k2, k4, hnd, fun r hr' => ?_, fun m hm => ?_⟩
  · have hf : rs.find? (fun q => q.name == r.name) = some r := by
      cases hc : rs.find? (fun q => q.name == r.name) with
      | none =>
        have := List.find?_eq_none.1 hc r hr'
        simp at this
      | some q =>
        have hq : q.name = r.name := by simpa using List.find?_some hc
        have := List.inj_on_of_nodup_map hnd (List.mem_of_find?_eq_some hc) hr' hq
        rw [this]
    have := k5 r.name
    rw [hf] at this
    cases hc : (objectsOf T s).find? (fun m => wordOf m.name == r.name) with
    | none =>
      rw [hc] at this
      cases this
    | some m =>
      rw [hc] at this
      exact ⟨m, find_first hc, by simpa using this⟩
  · have := congrArg (fun o => o.isSome = true) (k5 (wordOf m.name))
    simp only [Option.isSome_map, List.find?_isSome, beq_iff_eq] at this
    exact (iff_of_eq this).2 ⟨m, hm, rfl⟩

/-- C124: the file has as many objects as the scene if and only if the first words of their names are all different. -/
theorem C124_exact (T : Toolbox N L K) (hr : ∀ n : ℕ, n ≤ 2 ^ 53 → T.rnd n = n) (noise : SceneFormat → Bool → Path → Fs → List Text) (args : Args) (fs : Fs) (a : FormatArgs)
    (ha : formatArgs args = .ok a) (hn : a.formats = false) (ho : a.outFormat = "OBJ".toList) (hw : Writable fs a.outPath)
    (hu : (mainTalk (formatTalk T noise args) fs).1 ≠ .ub) (he : errors (mainTalk (formatTalk T noise args) fs).2.2 = [])
    (s : Scene N) (hs : ConvertedScene T a fs s) (hh : ObjHolds (objectsOf T s)) (hl : ∀ m ∈ objectsOf T s, HarmlessName m.name) :
    (∃ x rs, (mainTalk (formatTalk T noise args) fs).2.1 a.outPath = some (.file x) ∧ Obj.read T.rnd x = .ok rs ∧ rs.length = (objectsOf T s).length) ↔
      ((objectsOf T s).map fun m => wordOf m.name).Nodup := by
  obtain ⟨s', x, h1, h2, h3⟩ := C123_obj T noise args fs a ha hn ho hw hu he
  have e := converted_one hs h1
  subst e
  rw [← C23_words_exact T.rnd hr (objectsOf T s) (by simp [objectsOf]) hh hl]
  constructor
  · rintro ⟨y, rs, k1, k2, k3⟩
    have e : y = x := by
      have := k1.symm.trans h3
      injection this with this
      injection this
    subst e
    exact ⟨y, rs, h2, k2, k3⟩
  · rintro ⟨y, rs, k1, k2, k3⟩
    have e := Out.ok.inj (h2.symm.trans k1)
    subst e
    exact ⟨x, rs, h3, k2, k3⟩

theorem word_self {n : Text} (h : NoBlank n) : wordOf n = n := by
  have hn : '\n' ∉ n := by
    intro hc
    have := h _ hc
    revert this; decide
  have e : (n.takeWhile fun c => c != '\n') = n := by
    rw [List.takeWhile_eq_self_iff]
    intro c hc
    have : c ≠ '\n' := by rintro rfl; exact hn hc
    simpa using this
  unfold wordOf
  rw [e]
  have := Obj.firstToken_name h
  unfold Obj.firstToken at this
  cases n with
  | nil => rfl
  | cons c n =>
    have hc := h c (by simp)
    rw [List.dropWhile_cons, hc]
    rw [if_neg (by simp), List.takeWhile_eq_self_iff]
    intro d hd
    rw [h d hd]
    rfl

/-- C124, part: if the names are single words and different, who reads the file finds every object, and nothing else.
Missing from the full property, because false (C124_refuted): names of several words. -/
theorem C124_found_partial (T : Toolbox N L K) (hr : ∀ n : ℕ, n ≤ 2 ^ 53 → T.rnd n = n) (noise : SceneFormat → Bool → Path → Fs → List Text) (args : Args) (fs : Fs) (a : FormatArgs)
    (ha : formatArgs args = .ok a) (hn : a.formats = false) (ho : a.outFormat = "OBJ".toList) (hw : Writable fs a.outPath)
    (hu : (mainTalk (formatTalk T noise args) fs).1 ≠ .ub) (he : errors (mainTalk (formatTalk T noise args) fs).2.2 = [])
    (s : Scene N) (hs : ConvertedScene T a fs s) (hh : ObjHolds (objectsOf T s)) (hl : ∀ m ∈ objectsOf T s, NoBlank m.name)
    (hd : ((objectsOf T s).map Mesh.name).Nodup) :
    ∃ x rs g, (mainTalk (formatTalk T noise args) fs).2.1 a.outPath = some (.file x) ∧ Obj.read T.rnd x = .ok rs ∧
      (∀ m ∈ objectsOf T s, ∀ p ∈ m.points, ReadBack T.rnd p (g p)) ∧ (∀ m ∈ objectsOf T s, FindsObject g rs m) ∧ rs.length = (objectsOf T s).length := by
  have hharm : ∀ m ∈ objectsOf T s, HarmlessName m.name := by
    intro m hm b c e
    have := hl m hm '\n' (by rw [e]; simp)
    exact absurd this (by decide)
  have hwords : (objectsOf T s).map (fun m => wordOf m.name) = (objectsOf T s).map Mesh.name :=
    List.map_congr_left fun m hm => word_self (hl m hm)
  obtain ⟨x, rs, g, h1, h2, h3, h4, h5, h6⟩ := C124_words T hr noise args fs a ha hn ho hw hu he s hs hh hharm
  obtain ⟨x', rs', k1, k2, k3⟩ := (C124_exact T hr noise args fs a ha hn ho hw hu he s hs hh hharm).2 (by rw [hwords]; exact hd)
  have e : x' = x := by
    have := k1.symm.trans h1
    injection this with this
    injection this
  subst e
  have e := Out.ok.inj (k2.symm.trans h2)
  subst e
  refine ⟨x', rs', g, h1, h2, h3, fun m hm => ?_, k3⟩
  obtain ⟨r, hr1, hr2⟩ := h6 m hm
  obtain ⟨m', ⟨b, c, eb, hw', -⟩, hpol⟩ := h5 r hr1
  have hm' : m' ∈ objectsOf T s := by rw [eb]; simp
  rw [word_self (hl m hm)] at hr2
  rw [word_self (hl m' hm'), hr2] at hw'
  have := List.inj_on_of_nodup_map hd hm' hm hw'
  subst this
  exact ⟨r, hr1, hr2, hpol⟩

end

/-- C124, the full statement: after a conversion to an OBJ file without complaint, who reads the file finds every object of the scene. -/
def C124_full : Prop := ∀ (N L : Type) (T : Toolbox N L ℚ) (noise : SceneFormat → Bool → Path → Fs → List Text) (args : Args) (fs : Fs) (a : FormatArgs),
  (∀ n : ℕ, n ≤ 2 ^ 53 → T.rnd n = n) → (fs a.path = some .dir → Listing fs a.path (T.listing fs a.path)) → formatArgs args = .ok a →
  a.formats = false → a.outFormat = "OBJ".toList → Writable fs a.outPath → (mainTalk (formatTalk T noise args) fs).1 = .ok 0 →
  errors (mainTalk (formatTalk T noise args) fs).2.2 = [] → ∀ s, ConvertedScene T a fs s → ObjHolds (objectsOf T s) → ((objectsOf T s).map Mesh.name).Nodup →
  (∀ m ∈ objectsOf T s, FileNameOk m.name) →
  ∃ x rs g, (mainTalk (formatTalk T noise args) fs).2.1 a.outPath = some (.file x) ∧ Obj.read T.rnd x = .ok rs ∧
    (∀ m ∈ objectsOf T s, ∀ p ∈ m.points, ReadBack T.rnd p (g p)) ∧ ∀ m ∈ objectsOf T s, FindsObject g rs m

/-! ### The counterexample: two files whose names begin with the same word -/

/-- A directory of two buildings and the terrain. -/
def wingFs : Fs
  | [d] => if d = "d".toList then some .dir else none
  | [d, n] => if d = "d".toList then
      (if n = "north wing.off".toList ∨ n = "north tower.off".toList then some (.file (Off.write kinkedMesh)) else
        if n = "terrain.off".toList then some (.file (Off.write Mesh.empty)) else none) else none
  | _ => none

/-- What is in it. -/
def wingNames : List Text := ["north wing.off".toList, "north tower.off".toList, "terrain.off".toList]

/-- The tools of the example, which see these files. -/
def wingTools : Toolbox Mesh Unit ℚ := { toyTools with listing := fun _ _ => wingNames }

/-- `cityformat d --input-format=OFF output --output-format=OBJ d/b.obj`. -/
def wingArgs : Args := convArgs "d".toList "OFF".toList "d/b.obj".toList "OBJ".toList

/-- Its arguments. -/
def wingFormat : FormatArgs := ⟨false, ["d".toList], "OFF".toList, false, false, false, ["d".toList, "b.obj".toList], "OBJ".toList⟩

/-- Its scene. -/
def wingScene : Scene Mesh := Scene.makeDefault wingTools.ops [kinkedMesh.setName "north wing".toList, kinkedMesh.setName "north tower".toList] (Mesh.empty.setName "terrain".toList)

theorem wing_args : formatArgs wingArgs = .ok wingFormat := by rfl

theorem wing_read : Out.mapM (fun n => offRead wingTools.rnd wingTools.lf readMode (wingFormat.path ++ [n]) wingFs) (wingNames.filter (isBuildingFile wingFormat.path wingFs)) =
    .ok [kinkedMesh.setName "north wing".toList, kinkedMesh.setName "north tower".toList] ∧
    offRead wingTools.rnd wingTools.lf readMode (joinPath wingFormat.path "terrain.off".toList) wingFs = .ok (Mesh.empty.setName "terrain".toList) := by decide +kernel

theorem wing_scene : ConvertedScene wingTools wingFormat wingFs wingScene := by
  refine ⟨.off, wingScene, by decide, ?_, rfl⟩
  show offSceneRead wingTools.ops wingTools.rnd wingTools.lf readMode wingFormat.path wingNames wingFs = _
  unfold offSceneRead
  rw [if_neg (by decide +kernel), wing_read.1, wing_read.2]
  rfl

theorem wing_listing : Listing wingFs ["d".toList] wingNames := by
  refine ⟨by decide, fun n => ?_⟩
  show n ∈ wingNames ↔ (if "d".toList = "d".toList then
      (if n = "north wing.off".toList ∨ n = "north tower.off".toList then some (Entry.file (Off.write kinkedMesh)) else
        if n = "terrain.off".toList then some (.file (Off.write Mesh.empty)) else none) else none) ≠ none
  rw [if_pos rfl]
  unfold wingNames
  rw [List.mem_cons, List.mem_cons, List.mem_singleton, ← or_assoc]
  by_cases h1 : n = "north wing.off".toList ∨ n = "north tower.off".toList
  · rw [if_pos h1]
    exact ⟨fun _ h => (by cases h), fun _ => .inl h1⟩
  · rw [if_neg h1]
    by_cases h2 : n = "terrain.off".toList
    · rw [if_pos h2]
      exact ⟨fun _ h => (by cases h), fun _ => .inr h2⟩
    · rw [if_neg h2]
      exact ⟨fun h => absurd h (by tauto), fun h => absurd rfl h⟩

theorem wing_objects : objectsOf wingTools wingScene =
    [kinkedMesh.setName "north wing".toList, kinkedMesh.setName "north tower".toList, Mesh.empty.setName "terrain".toList] := rfl

theorem wing_holds : ObjHolds (objectsOf wingTools wingScene) := by
  rw [wing_objects]
  refine ⟨?_, by decide +kernel, by decide +kernel, by decide +kernel⟩
  have : ∀ p ∈ kinkedMesh.points, FinitePoint p := by
    intro p hp
    have hb : ∀ p ∈ kinkedMesh.points, |p.x| ≤ 3 ∧ |p.y| ≤ 3 ∧ |p.z| ≤ 3 := by decide +kernel
    have h3 : (3 : ℚ) ≤ dblMax := by decide +kernel
    obtain ⟨h1, h2, h3'⟩ := hb p hp
    exact ⟨h1.trans h3, h2.trans h3, h3'.trans h3⟩
  intro m hm
  simp only [List.mem_cons, List.not_mem_nil, or_false] at hm
  rcases hm with rfl | rfl | rfl
  · exact this
  · exact this
  · intro p hp
    cases hp

theorem wing_harmless : ∀ m ∈ objectsOf wingTools wingScene, HarmlessName m.name := by
  have : ∀ m ∈ objectsOf wingTools wingScene, '\n' ∉ m.name := by decide +kernel
  intro m hm a b e
  exact absurd (by rw [e]; simp) (this m hm)

/-- C124, the full statement is false: of `north wing.off` and `north tower.off` only one is in the file, under the name `north`. -/
theorem C124_refuted : ¬ C124_full := by
  intro h
  obtain ⟨x, rs, g, h1, h2, -, h4⟩ := h Mesh Unit wingTools (fun _ _ _ _ => []) wingArgs wingFs wingFormat (fun _ _ => rfl) (fun _ => wing_listing) wing_args rfl rfl
    (canWrite_iff.1 (by decide +kernel)) (by decide +kernel) (by decide +kernel) wingScene wing_scene wing_holds (by decide +kernel) (by unfold FileNameOk; decide +kernel)
  obtain ⟨r, hr, hn, -⟩ := h4 (kinkedMesh.setName "north wing".toList) (by rw [wing_objects]; simp)
  obtain ⟨y, qs, k, k1, k2, -, -, k5, -⟩ := C124_words wingTools (fun _ _ => rfl) (fun _ _ _ _ => []) wingArgs wingFs wingFormat wing_args rfl rfl
    (canWrite_iff.1 (by decide +kernel)) (by decide +kernel) (by decide +kernel) wingScene wing_scene wing_holds wing_harmless
  have e : y = x := by
    have := k1.symm.trans h1
    injection this with this
    injection this
  subst e
  have e := Out.ok.inj (k2.symm.trans h2)
  subst e
  obtain ⟨m, ⟨b, c, -, hw, -⟩, -⟩ := k5 r hr
  have hb := wordOf_noBlank m.name
  rw [hw, hn] at hb
  exact absurd (hb ' ' (by decide)) (by decide)

/-- C124: in this example the file has two objects, `north` and `terrain`, for a scene of three. -/
example : ¬ ∃ x rs, (mainTalk (formatTalk wingTools (fun _ _ _ _ => []) wingArgs) wingFs).2.1 wingFormat.outPath = some (.file x) ∧ Obj.read wingTools.rnd x = .ok rs ∧
    rs.length = (objectsOf wingTools wingScene).length := by
  rw [C124_exact wingTools (fun _ _ => rfl) (fun _ _ _ _ => []) wingArgs wingFs wingFormat wing_args rfl rfl
    (canWrite_iff.1 (by decide +kernel)) (by decide +kernel) (by decide +kernel) wingScene wing_scene wing_holds wing_harmless]
  decide +kernel

/-- C124: the hypotheses of `C124_found_partial` are met by the scene of a building called `roof`. -/
example : Writable (objFs kinkedObj) ["d".toList, "b.obj".toList] ∧
    (mainTalk (formatTalk toyTools (fun _ _ _ _ => []) (turnArgs "d/a.obj" "d/b.obj")) (objFs kinkedObj)).1 ≠ .ub ∧
    errors (mainTalk (formatTalk toyTools (fun _ _ _ _ => []) (turnArgs "d/a.obj" "d/b.obj")) (objFs kinkedObj)).2.2 = [] ∧
    (∀ m ∈ objectsOf toyTools occupiedScene, NoBlank m.name) ∧ ((objectsOf toyTools occupiedScene).map Mesh.name).Nodup :=
  ⟨canWrite_iff.1 (by decide +kernel), by decide +kernel, by decide +kernel, by unfold NoBlank; decide +kernel, by decide +kernel⟩

end City.Props
