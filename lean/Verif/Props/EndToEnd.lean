import Verif.Props.Overhead
import Verif.Props.CliRun
import Verif.Props.Handlers

/-! C107: from the input of orthoproject to the files it writes, with nodes that are surfaces. -/

namespace City.Spec
open City
variable {K : Type} [Field K] [LinearOrder K]

/-- A mesh whose heights are drawn as they are: its faces form an oriented surface; each is vertical, or flat without straight angle, with a valid shadow that
has the middles of its corners inside; and each is above the ones before wherever both are. -/
structure Drawable (C : Cgal K) (Ok : Pwh K → Prop) (Gen : V2 K → Prop) (emb : V3 ℚ → V3 K) (m : Mesh) : Prop where
  surface : PolygonMesh (m.points.map emb) (m.faces.map Face.points)
  faces : ∀ l ∈ faceShapes (m.points.map emb) (m.faces.map Face.points), SeenAsLine l ∨ (PlainRoof C Ok l ∧ MiddlesInside C Gen l)
  order : (faceShapes (m.points.map emb) (m.faces.map Face.points)).Pairwise (Lower C Gen)

/-- The tools work with nodes that are surfaces: a node is what the constructor from a mesh gives (an exception is kept until the node is projected), and
projecting is the constructor of footprints from nodes. -/
structure UsesNodes {L : Type} (T : Toolbox (Out (UNode K)) L K) (lib : SoupLib K) (emb : V3 ℚ → V3 K) : Prop where
  node : ∀ m ref epsg, T.ops.node m ref epsg = UNode.ofMesh lib emb m ref epsg
  proj : ∀ n, T.proj n = n >>= FootPrint.ofUNode T.C emb

/-- The command line asks for the vector files and for nothing else. -/
structure AsksVectors (args : Args) (la : Bool) : Prop where
  cache : ∃ b, Switch args "--cache" b
  graphs : Switch args "--graphs" false
  save : Switch args "save" true
  scene : Switch args "--scene" false
  labels : Switch args "--labels" la
  rasterize : Switch args "rasterize" false

end City.Spec

namespace City.Props
open City City.Spec City.FacePrint City.Brick

set_option linter.unusedSectionVars false

variable {L : Type} {K : Type} [Field K] [LinearOrder K] [IsStrictOrderedRing K] [FloorRing K]

/-- C107, the part that holds, for any input format: the vector file of every building holds a footprint with the heights of its mesh. Missing: as in C106. -/
theorem C107_scene_partial {T : Toolbox (Out (UNode K)) L K} {lib : SoupLib K} {emb : V3 ℚ → V3 K} (U : UsesNodes T lib emb)
    {Ok : Pwh K → Prop} {Good : T.C.PSet → Prop} {Gen : V2 K → Prop} (hC : Lawful T.C Ok Good Gen)
    (hrev : ∀ (a : Poly K) p, T.C.side a.reverse p = T.C.side a p) (hL : SoupLaw lib) (args : Args) (fs : Fs) (t : Text) (la : Bool)
    (bs : List Mesh) (tr : Mesh) (pivot : V3 ℚ) (epsg : Nat) (hin : InputIs T args fs t false (Scene.make T.ops bs tr pivot epsg)) (ha : AsksVectors args la)
    (hb : ∀ m ∈ bs, Drawable T.C Ok Gen emb m) (hn : (bs.map Mesh.name).Nodup) (hp : ∀ m ∈ bs, PlainName m.name)
    (hr : Ready fs ((splitSlash t).dropLast ++ ["vectors".toList]) (bs.flatMap fun m => [m.name ++ ".shp".toList, m.name ++ ".txt".toList])) :
    ∃ fs', orthoMain T args fs = (.ok 0, fs') ∧ ∀ m ∈ bs, ∃ fp : FootPrint K, fp.name = m.name ∧ fp.ref = emb pivot ∧ fp.epsg = epsg ∧
      HeightsOf T.C Gen (faceShapes (m.points.map emb) (m.faces.map Face.points)) (fp.brick.height T.C) ∧
      fs' ((splitSlash t).dropLast ++ ["vectors".toList, m.name ++ ".shp".toList]) = some (.file (T.G.shp (fp.toOgr T.C la))) := by
  have hex : ∀ m ∈ bs, ∃ fp : FootPrint K, T.proj (T.ops.node m pivot epsg) = .ok fp ∧ fp.name = m.name ∧ fp.ref = emb pivot ∧ fp.epsg = epsg ∧
      HeightsOf T.C Gen (faceShapes (m.points.map emb) (m.faces.map Face.points)) (fp.brick.height T.C) := by
    intro m hm
    obtain ⟨n, fp, h1, h2, h3, h4, h5, h6⟩ := C106_mesh_partial hC hrev hL emb m pivot epsg (hb m hm).surface (hb m hm).faces (hb m hm).order
    exact ⟨fp, by rw [U.proj, U.node, h1, Out.ok_bind, h2], h3, h4, h5, h6⟩
  obtain ⟨ps, hps⟩ : ∃ ps, List.Forall₂ (fun m (fp : FootPrint K) => T.proj (T.ops.node m pivot epsg) = .ok fp ∧ fp.name = m.name ∧ fp.ref = emb pivot ∧
      fp.epsg = epsg ∧ HeightsOf T.C Gen (faceShapes (m.points.map emb) (m.faces.map Face.points)) (fp.brick.height T.C)) bs ps := by
    clear hin hn hp hr hb
    induction bs with
    | nil => exact ⟨[], .nil⟩
    | cons m bs ih =>
      obtain ⟨fp, hfp⟩ := hex m List.mem_cons_self
      obtain ⟨ps, hps⟩ := ih fun m hm => hex m (List.mem_cons_of_mem _ hm)
      exact ⟨fp :: ps, .cons hfp hps⟩
  have hnames : ps.map FootPrint.name = bs.map Mesh.name := by
    clear hin hn hp hr hb hex
    induction hps with
    | nil => rfl
    | cons h _ ih => rw [List.map_cons, List.map_cons, h.2.1, ih]
  have hflat : (ps.flatMap fun f => [f.name ++ ".shp".toList, f.name ++ ".txt".toList]) =
      bs.flatMap fun m => [m.name ++ ".shp".toList, m.name ++ ".txt".toList] := by
    clear hin hn hp hr hb hex hnames
    induction hps with
    | nil => rfl
    | cons h _ ih => rw [List.flatMap_cons, List.flatMap_cons, h.2.1, ih]
  have hrun : RunOk T args fs t false false false la 0 (Scene.make T.ops bs tr pivot epsg) ps [] FootPrint.empty Raster.empty := by
    refine ⟨hin, ha.cache, ha.graphs, ha.save, ha.scene, ha.labels, .inl ⟨ha.rasterize, rfl⟩, ?_, ⟨by rw [hnames]; exact hn, ?_⟩, by simp, by rw [hflat]; exact hr,
      by simp, by simp, by simp⟩
    · show List.Forall₂ _ ((bs.map fun b => T.ops.node b pivot epsg) ++ []) ps
      rw [List.append_nil, List.forall₂_map_left_iff]
      exact hps.imp fun _ _ h => h.1
    · intro f hf
      have : f.name ∈ bs.map Mesh.name := by rw [← hnames]; exact List.mem_map_of_mem hf
      obtain ⟨m, hm, e⟩ := List.mem_map.1 this
      rw [← e]
      exact hp m hm
  obtain ⟨fs', h1, -, h2, -⟩ := C86_ortho T args fs t false false false la 0 _ ps [] FootPrint.empty _ hrun
  refine ⟨fs', h1, fun m hm => ?_⟩
  obtain ⟨fp, hfp, k⟩ := forall₂_mem_left hps m hm
  refine ⟨fp, k.2.1, k.2.2.1, k.2.2.2.1, k.2.2.2.2, ?_⟩
  rw [← k.2.1]
  exact (h2 fp hfp).1

/-- C107, the part that holds, for an OBJ file: the meshes of the text (C81 says what they are) that are not named terrain become the vector files; the
reference point is the origin, the EPSG code 2154. Missing: as in C106. -/
theorem C107_obj_partial {T : Toolbox (Out (UNode K)) L K} {lib : SoupLib K} {emb : V3 ℚ → V3 K} (U : UsesNodes T lib emb)
    {Ok : Pwh K → Prop} {Good : T.C.PSet → Prop} {Gen : V2 K → Prop} (hC : Lawful T.C Ok Good Gen)
    (hrev : ∀ (a : Poly K) p, T.C.side a.reverse p = T.C.side a p) (hL : SoupLaw lib) (args : Args) (fs : Fs) (t x : Text) (la : Bool) (ms : List Mesh)
    (hscene : Given args "<scene>" t) (hfmt : Given args "--input-format" "OBJ".toList) (hext : NamedLike (splitSlash t) "obj".toList)
    (hfile : fs (splitSlash t) = some (.file x)) (hread : Obj.read T.rnd x = .ok ms) (hprune : Switch args "--prune" false)
    (hterrain : Switch args "--terrain" false) (ha : AsksVectors args la)
    (hb : ∀ m ∈ ms, m.name ≠ "terrain".toList → Drawable T.C Ok Gen emb m) (hn : (ms.map Mesh.name).Nodup) (hp : ∀ m ∈ ms, PlainName m.name)
    (hr : Ready fs ((splitSlash t).dropLast ++ ["vectors".toList]) (ms.flatMap fun m => [m.name ++ ".shp".toList, m.name ++ ".txt".toList])) :
    ∃ fs', orthoMain T args fs = (.ok 0, fs') ∧ ∀ m ∈ ms, m.name ≠ "terrain".toList → ∃ fp : FootPrint K, fp.name = m.name ∧ fp.ref = emb ⟨0, 0, 0⟩ ∧
      fp.epsg = 2154 ∧ HeightsOf T.C Gen (faceShapes (m.points.map emb) (m.faces.map Face.points)) (fp.brick.height T.C) ∧
      fs' ((splitSlash t).dropLast ++ ["vectors".toList, m.name ++ ".shp".toList]) = some (.file (T.G.shp (fp.toOgr T.C la))) := by
  have hF : sceneHandlerNamed (splitSlash t) "OBJ".toList = .ok .obj := by
    rw [(C31_formats _ _ _).1]
    refine Or.inr (Or.inr (Or.inr ⟨rfl, rfl, ?_⟩))
    exact (iequals_ext (e := "obj".toList) (by decide)).2 hext
  have hm : OpenedRead readMode := by unfold OpenedRead; decide
  obtain ⟨b, tr, h1, h2⟩ := C29_scene T.ops T.rnd readMode (splitSlash t) fs x ms hm hfile hread
  have hbs : b = ms.filter fun m => m.name != "terrain".toList := by
    rw [exclude_eq] at h1
    exact (congrArg Prod.fst h1).symm
  have hsub : ∀ m ∈ b, m ∈ ms ∧ m.name ≠ "terrain".toList := by
    intro m hm
    rw [hbs, List.mem_filter] at hm
    exact ⟨hm.1, by simpa using hm.2⟩
  have hin : InputIs T args fs t false (Scene.make T.ops b tr ⟨0, 0, 0⟩ 2154) :=
    ⟨hscene, hterrain, "OBJ".toList, .obj, _, false, hfmt, hF, h2, hprune, by simp, fun _ => rfl⟩
  have hlist : b.Sublist ms := by rw [hbs]; exact List.filter_sublist
  obtain ⟨fs', k1, k2⟩ := C107_scene_partial U hC hrev hL args fs t la b tr ⟨0, 0, 0⟩ 2154 hin ha (fun m hm => hb m (hsub m hm).1 (hsub m hm).2)
    (hn.sublist (hlist.map _)) (fun m hm => hp m (hsub m hm).1) ⟨hr.dir_ok, fun n hn' => hr.no_dir n (by
      obtain ⟨m, hm, h⟩ := List.mem_flatMap.1 hn'
      exact List.mem_flatMap.2 ⟨m, (hsub m hm).1, h⟩)⟩
  refine ⟨fs', k1, fun m hm hne => k2 m ?_⟩
  rw [hbs, List.mem_filter]
  exact ⟨hm, by simpa using hne⟩

/-! ### Example -/

/-- An OBJ file with a block of two by two units, 3 m high. -/
def blockObj : Text :=
  "v 0 0 0\nv 2 0 0\nv 2 2 0\nv 0 2 0\nv 0 0 3\nv 2 0 3\nv 2 2 3\nv 0 2 3\n\no block\nf 1 4 3 2 \nf 1 2 6 5 \nf 2 3 7 6 \nf 3 4 8 7 \nf 4 1 5 8 \nf 5 6 7 8 \n".toList

theorem blockObj_read : Obj.read _root_.id blockObj = .ok [blockMesh] := by decide +kernel

/-- Tools on nodes that are surfaces, with rectangles as polygons; a vector file holds one letter per face. -/
def nodeTools (lib : SoupLib ℚ) : Toolbox (Out (UNode ℚ)) Unit ℚ where
  ops := ⟨fun m ref epsg => UNode.ofMesh lib _root_.id m ref epsg, fun n => match n >>= Mesh.ofNode _root_.id with | .ok m => m | _ => Mesh.empty⟩
  lib := toyTools.lib
  rnd := _root_.id
  lf := true
  listing := fun _ _ => []
  prune := .ok
  dual := fun _ => ([], [], .ok ())
  proj := fun n => n >>= FootPrint.ofUNode rectCgal _root_.id
  C := rectCgal
  lr := true
  G := ⟨fun l => l.features.map fun _ => 'f', fun _ => none, fun _ => [], fun _ => none, fun _ => -1, fun _ => [], fun _ => 0⟩
  stod := toyTools.stod

theorem nodeTools_uses (lib : SoupLib ℚ) : UsesNodes (nodeTools lib) lib _root_.id := ⟨fun _ _ _ => rfl, fun _ => rfl⟩

/-- `orthoproject d/a.obj --input-format=OBJ save`. -/
def objArgs : Args := fun n =>
  if n = "<scene>".toList then some (.str "d/a.obj".toList) else
  if n = "--input-format".toList then some (.str "OBJ".toList) else
  if n = "save".toList then some (.bool true) else some (.bool false)

/-- The directory `d` with the file `a.obj`. -/
def objFs (x : Text) : Fs
  | [d] => if d = "d".toList then some .dir else none
  | [d, n] => if d = "d".toList then if n = "a.obj".toList then some (.file x) else none else none
  | _ => none

theorem objArgs_asks : AsksVectors objArgs false :=
  ⟨⟨false, by unfold Switch; decide⟩, by unfold Switch; decide, by unfold Switch; decide, by unfold Switch; decide, by unfold Switch; decide, by unfold Switch; decide⟩

theorem objFs_ready (x : Text) (names : List Text) : Ready (objFs x) ((splitSlash "d/a.obj".toList).dropLast ++ ["vectors".toList]) names := by
  rw [show (splitSlash "d/a.obj".toList).dropLast ++ ["vectors".toList] = ["d".toList, "vectors".toList] by decide]
  refine ⟨.inr ⟨?_, by simp, ?_⟩, fun n _ => ?_⟩
  · unfold objFs
    simp
  · unfold objFs
    simp
  · show objFs x ["d".toList, "vectors".toList, n] ≠ _
    unfold objFs
    simp

theorem objName : NamedLike (splitSlash "d/a.obj".toList) "obj".toList :=
  ⟨["d".toList], "a".toList, "obj".toList, by decide, by decide⟩

theorem block_drawable : Drawable rectCgal RectOk RectGen _root_.id blockMesh :=
  ⟨⟨block, by rw [List.map_id]; exact block_represents⟩, block_faces, block_lower⟩

/-- C107: the hypotheses are met: the file of the block, read and projected, gives a vector file with the heights of the block. -/
example (lib : SoupLib ℚ) (hL : SoupLaw lib) : ∃ fs', orthoMain (nodeTools lib) objArgs (objFs blockObj) = (.ok 0, fs') ∧ ∃ fp : FootPrint ℚ,
    HeightsOf rectCgal RectGen (faceShapes (blockMesh.points.map _root_.id) (blockMesh.faces.map Face.points)) (fp.brick.height rectCgal) ∧
    fs' ["d".toList, "vectors".toList, "block.shp".toList] = some (.file ((nodeTools lib).G.shp (fp.toOgr rectCgal false))) := by
  obtain ⟨fs', h1, h2⟩ := C107_obj_partial (nodeTools_uses lib) (Ok := RectOk) (Good := RectGood) (Gen := RectGen) rect_lawful rect_reverse hL objArgs
    (objFs blockObj) "d/a.obj".toList blockObj false [blockMesh] (by unfold Given; decide) (by unfold Given; decide)
    objName (by decide +kernel) blockObj_read (by unfold Switch; decide) (by unfold Switch; decide)
    objArgs_asks (by
      intro m hm _
      rw [List.mem_singleton] at hm
      subst hm
      exact block_drawable) (by decide) (by unfold PlainName; decide) (objFs_ready _ _)
  obtain ⟨fp, -, -, -, h3, h4⟩ := h2 blockMesh (by simp) (by decide)
  exact ⟨fs', h1, fp, h3, h4⟩

/-! ### The full statement -/

/-- C107, as it is stated: the same for all meshes with flat faces whose shadows are regions the library can handle. -/
def C107_full : Prop := ∀ (T : Toolbox (Out (UNode ℚ)) Unit ℚ) (lib : SoupLib ℚ), UsesNodes T lib _root_.id →
  ∀ (Ok : Pwh ℚ → Prop) (Good : T.C.PSet → Prop) (Gen : V2 ℚ → Prop), Lawful T.C Ok Good Gen →
  (∀ (a : Poly ℚ) p, T.C.side a.reverse p = T.C.side a p) → SoupLaw lib → ∀ (args : Args) (fs : Fs) (t x : Text) (la : Bool) (ms : List Mesh),
  Given args "<scene>" t → Given args "--input-format" "OBJ".toList → NamedLike (splitSlash t) "obj".toList →
  fs (splitSlash t) = some (.file x) → Obj.read T.rnd x = .ok ms → Switch args "--prune" false → Switch args "--terrain" false → AsksVectors args la →
  (∀ m ∈ ms, m.name ≠ "terrain".toList → PolygonMesh m.points (m.faces.map Face.points) ∧ ∀ l ∈ faceShapes m.points (m.faces.map Face.points),
    SeenAsLine l ∨ (FlatRoof l ∧ ∃ r, Ok r ∧ ∀ q, Interior T.C r q ↔ T.C.side (l.map ground) q = .bounded)) →
  (ms.map Mesh.name).Nodup → (∀ m ∈ ms, PlainName m.name) →
  Ready fs ((splitSlash t).dropLast ++ ["vectors".toList]) (ms.flatMap fun m => [m.name ++ ".shp".toList, m.name ++ ".txt".toList]) →
  ∃ fs', orthoMain T args fs = (.ok 0, fs') ∧ ∀ m ∈ ms, m.name ≠ "terrain".toList → ∃ fp : FootPrint ℚ,
    HeightsOf T.C Gen (faceShapes m.points (m.faces.map Face.points)) (fp.brick.height T.C) ∧
    fs' ((splitSlash t).dropLast ++ ["vectors".toList, m.name ++ ".shp".toList]) = some (.file (T.G.shp (fp.toOgr T.C la)))

/-- The flat roof with a fifth corner in the middle of a side. -/
def kinkedMesh : Mesh := Mesh.make "roof".toList kinked.points [⟨[0, 1, 2, 3, 4]⟩]

/-- Its OBJ file. -/
def kinkedObj : Text := "v 0 0 3\nv 1 0 3\nv 2 0 3\nv 2 2 3\nv 0 2 3\n\no roof\nf 1 2 3 4 5 \n".toList

theorem kinkedObj_read : Obj.read _root_.id kinkedObj = .ok [kinkedMesh] := by decide +kernel

open Classical in
/-- A library which begins the face at the point number 0. -/
noncomputable def kinkedLib : SoupLib ℚ :=
  ⟨demoSoup.orient, fun pts polys => if pts = kinked.points ∧ polys = [[0, 1, 2, 3, 4]] then .ok kinked else demoSoup.build pts polys, demoSoup.outward⟩

theorem kinkedLib_law : SoupLaw kinkedLib where
  orient_id := demoSoup_law.orient_id
  build_ok := by
    intro pts polys h
    by_cases e : pts = kinked.points ∧ polys = [[0, 1, 2, 3, 4]]
    · refine ⟨kinked, ?_, by rw [e.1, e.2]; exact kinked_represents⟩
      unfold kinkedLib
      simp only
      rw [if_pos e]
    · obtain ⟨S, h1, h2⟩ := demoSoup_law.build_ok pts polys h
      refine ⟨S, ?_, h2⟩
      unfold kinkedLib
      simp only
      rw [if_neg e, h1]
  outward_same := demoSoup_law.outward_same
  outward_reverse := demoSoup_law.outward_reverse

/-- The node of that mesh. -/
theorem kinked_node : UNode.ofMesh kinkedLib _root_.id kinkedMesh ⟨0, 0, 0⟩ 2154 = .ok (UNode.make "roof".toList ⟨0, 0, 0⟩ 2154 kinked) := by
  unfold UNode.ofMesh UNode.ofSoup
  have e : kinkedLib.orient (kinkedMesh.points.map _root_.id) (kinkedMesh.faces.map Face.points) = (kinked.points, [[0, 1, 2, 3, 4]]) := rfl
  have b : kinkedLib.build kinked.points [[0, 1, 2, 3, 4]] = .ok kinked := by
    have g : ∀ pts polys, pts = kinked.points ∧ polys = [[0, 1, 2, 3, 4]] → kinkedLib.build pts polys = .ok kinked := by
      intro pts polys h
      unfold kinkedLib
      simp only
      rw [if_pos h]
    exact g _ _ ⟨rfl, rfl⟩
  rw [e, b, Out.ok_bind]
  unfold UNode.orientOutward
  rw [show kinked.isClosed = false by decide +kernel]
  rfl

theorem kinked_proj : FootPrint.ofUNode rectCgal _root_.id (UNode.make "roof".toList ⟨0, 0, 0⟩ 2154 kinked) = .ok ⟨"roof".toList, ⟨0, 0, 0⟩, 2154, Brick.empty⟩ := by decide +kernel

/-- C107: false as stated: the vector file of the kinked roof is empty. -/
theorem C107_refuted : ¬ C107_full := by
  intro h
  have hr := objFs_ready kinkedObj ([kinkedMesh].flatMap fun m => [m.name ++ ".shp".toList, m.name ++ ".txt".toList])
  have hp : ∀ m ∈ [kinkedMesh], PlainName m.name := by unfold PlainName; decide
  obtain ⟨fs', h1, h2⟩ := h (nodeTools kinkedLib) kinkedLib (nodeTools_uses _) RectOk RectGood RectGen rect_lawful rect_reverse kinkedLib_law objArgs
    (objFs kinkedObj) "d/a.obj".toList kinkedObj false [kinkedMesh] (by unfold Given; decide) (by unfold Given; decide) objName
    (by decide +kernel) kinkedObj_read (by unfold Switch; decide) (by unfold Switch; decide) objArgs_asks (by
      intro m hm _
      rw [List.mem_singleton] at hm
      subst hm
      exact ⟨⟨kinked, kinked_represents⟩, kinked_roofs⟩) (by decide) hp hr
  obtain ⟨fp, h3, h4⟩ := h2 kinkedMesh (by simp) (by decide)
  have hne : fp.brick.faces ≠ [] := by
    intro e
    obtain ⟨z, z1, z2⟩ := kinked_heights h3
    have : fp.brick.height rectCgal ⟨1 / 2, 1 / 2⟩ = .ok 0 := by
      unfold Brick.height
      rw [e]
      split <;> rfl
    rw [show (nodeTools kinkedLib).C = rectCgal from rfl, this] at z1
    cases z1
    norm_num at z2
  have hF : sceneHandlerNamed (splitSlash "d/a.obj".toList) "OBJ".toList = .ok .obj := by decide +kernel
  have hm : OpenedRead readMode := by unfold OpenedRead; decide
  obtain ⟨b, tr, k1, k2⟩ := C29_scene (nodeTools kinkedLib).ops (nodeTools kinkedLib).rnd readMode (splitSlash "d/a.obj".toList) (objFs kinkedObj) kinkedObj [kinkedMesh] hm
    (by decide +kernel) kinkedObj_read
  have hb : b = [kinkedMesh] := by
    rw [exclude_eq] at k1
    exact (congrArg Prod.fst k1).symm
  subst hb
  have hin : InputIs (nodeTools kinkedLib) objArgs (objFs kinkedObj) "d/a.obj".toList false (Scene.make (nodeTools kinkedLib).ops [kinkedMesh] tr ⟨0, 0, 0⟩ 2154) :=
    ⟨by unfold Given; decide, by unfold Switch; decide, "OBJ".toList, .obj, _, false, by unfold Given; decide, hF, k2, by unfold Switch; decide, by simp, fun _ => rfl⟩
  have hrun : RunOk (nodeTools kinkedLib) objArgs (objFs kinkedObj) "d/a.obj".toList false false false false 0
      (Scene.make (nodeTools kinkedLib).ops [kinkedMesh] tr ⟨0, 0, 0⟩ 2154) [⟨"roof".toList, ⟨0, 0, 0⟩, 2154, Brick.empty⟩] [] FootPrint.empty Raster.empty := by
    refine ⟨hin, objArgs_asks.cache, objArgs_asks.graphs, objArgs_asks.save, objArgs_asks.scene, objArgs_asks.labels, .inl ⟨objArgs_asks.rasterize, rfl⟩, ?_, ⟨by simp, ?_⟩,
      by simp, hr, by simp, by simp, by simp⟩
    · refine .cons ?_ .nil
      show UNode.ofMesh kinkedLib _root_.id kinkedMesh ⟨0, 0, 0⟩ 2154 >>= FootPrint.ofUNode rectCgal _root_.id = _
      rw [kinked_node, Out.ok_bind, kinked_proj]
    · intro f hf
      rw [List.mem_singleton] at hf
      subst hf
      exact hp kinkedMesh (by simp)
  obtain ⟨fs'', e1, -, e2, -⟩ := C86_ortho _ _ _ _ _ _ _ _ _ _ _ _ _ _ hrun
  rw [h1] at e1
  cases e1
  have e3 := (e2 _ (List.mem_singleton_self _)).1
  have e4 := h4.symm.trans e3
  cases hf : fp.brick.faces with
  | nil => exact hne hf
  | cons a l =>
    have e5 : (nodeTools kinkedLib).G.shp (fp.toOgr (nodeTools kinkedLib).C false) = 'f' :: (List.map (fun _ => 'f') (l.map (FacePrint.toOgr rectCgal fp.ref))) := by
      show ((fp.brick.faces.map (FacePrint.toOgr rectCgal fp.ref)).map fun _ => 'f') = _
      rw [hf]
      rfl
    rw [e5] at e4
    cases e4

end City.Props
