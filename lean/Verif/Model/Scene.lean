import Verif.Model.Handlers
import Verif.Model.T3ds
import Verif.Model.SceneTree
/-
Model of /repo/src/lib/io/io_scene.cpp, of the scene construction of /repo/src/lib/scene/scene.cpp and of
`T3DSHandler::get_scene` (io_3ds.cpp:49-88).
CGAL is not modelled: `node m pivot epsg` stands for `UNode(mesh, pivot, epsg)` and `back n` for `Mesh(unode)`.
The order in which arguments of one call are evaluated only decides which of several exceptions is seen; the model uses the order
of the text.
-/
namespace City

/-- `scene::Scene`: scene.h:106-114. -/
structure Scene (N : Type) where
  pivot : V3 ℚ
  epsg : Nat
  buildings : List N
  terrain : N

/-- What the scene code sees of CGAL and of `UNode`. -/
structure NodeOps (N : Type) where
  node : Mesh → V3 ℚ → Nat → N
  back : N → Mesh

variable {N L : Type}

/-- `Scene::Scene(building_meshes, terrain_mesh, pivot, epsg)`: scene.cpp:12-31. -/
def Scene.make (ops : NodeOps N) (bs : List Mesh) (t : Mesh) (pivot : V3 ℚ) (epsg : Nat) : Scene N :=
  ⟨pivot, epsg, bs.map fun b => ops.node b pivot epsg, ops.node t pivot epsg⟩

/-- The default arguments of that constructor: scene.h:28-29. -/
def Scene.makeDefault (ops : NodeOps N) (bs : List Mesh) (t : Mesh) : Scene N := Scene.make ops bs t ⟨0, 0, 0⟩ 2154

/-- `enum SceneFormat`: io_scene.h:13-19. -/
inductive SceneFormat where
  | t3dsXml | t3ds | off | obj
  deriving DecidableEq

/-- `SceneHandler::supported_formats`: io_scene.cpp:18. -/
def supportedFormats : List Text := ["3DS XML".toList, "3DS".toList, "OFF".toList, "OBJ".toList]

/-- `SceneHandler::supported_extentions`: io_scene.cpp:19. -/
def supportedExtensions : List Text := [".3ds".toList, ".3ds".toList, ".off".toList, ".obj".toList]

/-- The values of the enumeration. -/
def SceneFormat.toNat : SceneFormat → Nat
  | t3dsXml => 0 | t3ds => 1 | off => 2 | obj => 3

/-- The `static_cast<SceneFormat>` of io_scene.cpp:163; other values do not occur there. -/
def SceneFormat.fromNat : Nat → SceneFormat
  | 0 => t3dsXml | 1 => t3ds | 2 => off | _ => obj

/-- `SceneHandler::scene_format`: io_scene.cpp:152-164. -/
def sceneFormat (f : Text) : Out SceneFormat :=
  if supportedFormats.idxOf f < supportedFormats.length then .ok (SceneFormat.fromNat (supportedFormats.idxOf f))
  else .thrown .runtimeError

/-- `SceneHandler::extension`: io_scene.cpp:165-168. -/
def formatExt (f : SceneFormat) : Out Text := Out.atOr supportedExtensions f.toNat

/-- `SceneHandler::check_extension`: io_scene.cpp:170-179. -/
def checkExtension (f : SceneFormat) (p : Path) : Out Unit := do
  let e ← formatExt f
  if iequals (extension p) e then .ok () else .thrown .runtimeError

/-- `SceneHandler::SceneHandler(path, modes, format)`: io_scene.cpp:25-40. -/
def sceneHandler (p : Path) (f : SceneFormat) : Out SceneFormat :=
  match f with
  | .off => .ok .off
  | f => do
    checkExtension f p
    .ok f

/-- `SceneHandler::SceneHandler(path, modes, string)`: io_scene.cpp:22-24. -/
def sceneHandlerNamed (p : Path) (f : Text) : Out SceneFormat := do
  let f ← sceneFormat f
  sceneHandler p f

/-- The files of a directory taken as buildings: io_scene.cpp:62-74. `names` is the list of names given by the directory
iterator, in any order. -/
def isBuildingFile (p : Path) (fs : Fs) (n : Text) : Bool :=
  (match fs (p ++ [n]) with
    | some (.file _) => true
    | _ => false)
  && iequals (extension (p ++ [n])) ".off".toList && stem (p ++ [n]) != "terrain".toList

/-- `SceneHandler::read`, OFF: io_scene.cpp:49-83. -/
def offSceneRead (ops : NodeOps N) (rnd : ℚ → ℚ) (lf : Bool) (modes : Modes) (p : Path) (names : List Text) (fs : Fs) :
    Out (Scene N) :=
  if fs p ≠ some .dir then .thrown .runtimeError
  else do
    let bs ← Out.mapM (fun n => offRead rnd lf modes (p ++ [n]) fs) (names.filter (isBuildingFile p fs))
    let t ← offRead rnd lf modes (joinPath p "terrain.off".toList) fs
    .ok (Scene.makeDefault ops bs t)

/-- `SceneHandler::read`, OBJ: io_scene.cpp:84-86, io_obj.cpp:110-117. -/
def objSceneRead (ops : NodeOps N) (rnd : ℚ → ℚ) (modes : Modes) (p : Path) (fs : Fs) : Out (Scene N) := do
  let r ← objSceneMeshes rnd modes p fs
  .ok (Scene.makeDefault ops r.1 r.2)

/-- lib3ds, tinyxml2 and the conversion of library meshes, as used by the 3DS formats. -/
structure Libs (L : Type) where
  load : Text → Option (File3ds L)
  nm : L → Text
  conv : L → Mesh
  xml : Text → Option (List Elem)
  dbl : Elem → Option ℚ
  uns : Elem → Option Nat

/-- `T3DSHandler::get_scene(tree, true)`: io_3ds.cpp:52-73. -/
def t3dsSceneXml (ops : NodeOps N) (lib : Libs L) (modes : Modes) (file : Option (File3ds L)) (doc : List Elem) : Out (Scene N) := do
  let ids ← SceneTree.buildingIds doc
  let bs ← Out.mapM (fun id => T3ds.mesh lib.nm lib.conv modes file id ['F', 'T']) ids
  let tid ← SceneTree.terrainId doc
  let t ← T3ds.mesh lib.nm lib.conv modes file tid ['M']
  let pv ← SceneTree.pivot lib.dbl doc
  let ep ← SceneTree.epsg lib.uns doc
  .ok (Scene.make ops bs (t.setName "terrain".toList) pv ep)

/-- `T3DSHandler::get_scene(tree, false)`: io_3ds.cpp:74-80. -/
def t3dsSceneLevel (ops : NodeOps N) (lib : Libs L) (modes : Modes) (file : Option (File3ds L)) (doc : List Elem) : Out (Scene N) := do
  let bs ← T3ds.levelMeshes lib.nm lib.conv modes file 1 ['F', 'T']
  let t ← T3ds.levelTerrain lib.nm lib.conv modes file 1
  let pv ← SceneTree.pivot lib.dbl doc
  let ep ← SceneTree.epsg lib.uns doc
  .ok (Scene.make ops bs t pv ep)

/-- `T3DSHandler::get_scene()`: io_3ds.cpp:82-88. -/
def t3dsScenePlain (ops : NodeOps N) (lib : Libs L) (modes : Modes) (file : Option (File3ds L)) : Out (Scene N) := do
  let bs ← T3ds.levelMeshes lib.nm lib.conv modes file 1 ['F', 'T']
  let t ← T3ds.levelTerrain lib.nm lib.conv modes file 1
  .ok (Scene.makeDefault ops bs t)

/-- `filepath.parent_path() / (filepath.stem().string() + ".XML")`: io_scene.cpp:90-94. -/
def xmlPath (p : Path) : Path := joinPath p.dropLast (stem p ++ ".XML".toList)

/-- The exceptions derived from `std::runtime_error` (also `boost::filesystem::filesystem_error` and
`std::ios_base::failure`). -/
def Exc.isRuntime : Exc → Bool
  | .runtimeError | .filesystemError | .overflowError | .rangeError | .failure => true
  | _ => false

/-- `SceneHandler::read`: io_scene.cpp:44-118. -/
def sceneRead (ops : NodeOps N) (lib : Libs L) (rnd : ℚ → ℚ) (lf : Bool) (f : SceneFormat) (modes : Modes) (p : Path)
    (names : List Text) (fs : Fs) : Out (Scene N) :=
  match f with
  | .off => offSceneRead ops rnd lf modes p names fs
  | .obj => objSceneRead ops rnd modes p fs
  | .t3dsXml => do
    let file ← T3ds.construct lib.load modes p fs
    let doc ← SceneTree.construct lib.xml (xmlPath p) fs
    t3dsSceneXml ops lib modes file doc
  | .t3ds =>
    match (do
      let file ← T3ds.construct lib.load modes p fs
      let doc ← SceneTree.construct lib.xml (xmlPath p) fs
      t3dsSceneLevel ops lib modes file doc : Out (Scene N)) with
    | .ok s => .ok s
    | .ub => .ub
    | .thrown e =>
      if e.isRuntime then do
        let file ← T3ds.construct lib.load modes p fs
        t3dsScenePlain ops lib modes file
      else .thrown e

/-- The loop over the buildings, then the terrain: io_scene.cpp:128-143; an exception stops it. -/
def offWriteAll (modes : Modes) (p : Path) : List Mesh → Fs → Out Unit × Fs
  | [], fs => (.ok (), fs)
  | m :: ms, fs =>
    match offWrite modes (joinPath p (m.name ++ ".off".toList)) m fs with
    | (.ok (), fs') => offWriteAll modes p ms fs'
    | r => r

/-- `SceneHandler::write`, OFF: io_scene.cpp:122-144; `create_directory` throws without parent directory. -/
def offSceneWrite (ops : NodeOps N) (modes : Modes) (p : Path) (s : Scene N) (fs : Fs) : Out Unit × Fs :=
  match fs p with
  | none =>
    if fs p.dropLast = some .dir then
      offWriteAll modes p (s.buildings.map ops.back ++ [ops.back s.terrain]) (fs.set p .dir)
    else (.thrown .filesystemError, fs)
  | some .dir => offWriteAll modes p (s.buildings.map ops.back ++ [ops.back s.terrain]) fs
  | some (.file _) => (.thrown .runtimeError, fs)

/-- `SceneHandler::write`: io_scene.cpp:120-150, with the constructor of io_obj.cpp:17-30. -/
def sceneWrite (ops : NodeOps N) (f : SceneFormat) (modes : Modes) (p : Path) (s : Scene N) (fs : Fs) : Out Unit × Fs :=
  match f with
  | .off => offSceneWrite ops modes p s fs
  | .obj => objWrite modes p (s.buildings.map ops.back ++ [ops.back s.terrain]) fs
  | .t3dsXml => (.thrown .logicError, fs)
  | .t3ds => (.thrown .logicError, fs)

end City
