import Verif.Model.Console
/-
The command line tools as processes: sequences of calls to the operating system, between which other processes may run and at which a process may be killed:
/repo/src/bin/orthoproject.cpp, /repo/src/bin/cityformat.cpp and what they call in /repo/src/lib/io and /repo/src/lib/algorithms/scene_algorithms.cpp. Model/Console has the
same programs as functions of the state of the files; `Props/Process.lean` proves that a process that is left alone does what these functions say.
A file is read in one call. A file is written in any number of calls: when it is made or emptied, and whenever more of it (or something else) has arrived on the disk; `drafts` is
what it holds in between, and is arbitrary, for streams and for GDAL alike. That another process writes to the same file at the same time is in Model/Parallel.
-/
namespace City

/-- A process: the call it makes next, and how it goes on with the answer. -/
inductive Prog (A : Type) where
  /-- The end. -/
  | stop (r : Out A)
  /-- Something is printed. -/
  | say (s : Said) (k : Prog A)
  /-- `exists`, `is_directory`, `is_regular_file`, or a file that is opened and read. -/
  | look (p : Path) (k : Option Entry → Prog A)
  /-- `directory_iterator`: the names with the extension `.off`, in any case: io_scene.cpp:62-68; the other names are skipped by the loop. -/
  | names (p : Path) (k : List Text → Prog A)
  /-- What the readers of 3DS files print. -/
  | hear (f : SceneFormat) (again : Bool) (p : Path) (k : List Text → Prog A)
  /-- `create_directory`. -/
  | mkdir (p : Path) (k : Out Unit → Prog A)
  /-- A file is opened for writing, and emptied; the answer is whether it could be opened. -/
  | create (p : Path) (k : Bool → Prog A)
  /-- An open file has now this content. -/
  | store (p : Path) (t : Text) (k : Prog A)

/-- What the processes run in. -/
structure Machine where
  listing : Fs → Path → List Text
  noise : SceneFormat → Bool → Path → Fs → List Text

namespace Prog

/-- What a process does next: a call, the files after it and what was printed. -/
def step {A : Type} (M : Machine) : Prog A → Fs → Prog A × Fs × List Said
  | .stop r, fs => (.stop r, fs, [])
  | .say s k, fs => (k, fs, [s])
  | .look p k, fs => (k (fs p), fs, [])
  | .names p k, fs => (k ((M.listing fs p).filter fun n => iequals (extension [n]) ".off".toList), fs, [])
  | .hear f b p k, fs => (k (M.noise f b p fs), fs, [])
  | .mkdir p k, fs => (k (makeDir p fs).1, (makeDir p fs).2, [])
  | .create p k, fs => (k (fs.canWrite p), if fs.canWrite p then fs.set p (.file []) else fs, [])
  | .store p t k, fs => (k, match fs p with
      | some (.file _) => fs.set p (.file t)
      | _ => fs, [])

/-- The process left alone, to its end. -/
def alone {A : Type} (M : Machine) : Prog A → Talk A
  | .stop r, fs => (r, fs, [])
  | .say s k, fs => ((k.alone M fs).1, (k.alone M fs).2.1, s :: (k.alone M fs).2.2)
  | .look p k, fs => (k (fs p)).alone M fs
  | .names p k, fs => (k ((M.listing fs p).filter fun n => iequals (extension [n]) ".off".toList)).alone M fs
  | .hear f b p k, fs => (k (M.noise f b p fs)).alone M fs
  | .mkdir p k, fs => (k (makeDir p fs).1).alone M (makeDir p fs).2
  | .create p k, fs => (k (fs.canWrite p)).alone M (if fs.canWrite p then fs.set p (.file []) else fs)
  | .store p t k, fs => k.alone M (match fs p with
      | some (.file _) => fs.set p (.file t)
      | _ => fs)

/-- The process left alone, after a number of calls. -/
def steps {A : Type} (M : Machine) : Nat → Prog A → Fs → Prog A × Fs × List Said
  | 0, x, fs => (x, fs, [])
  | n + 1, x, fs =>
    ((steps M n (x.step M fs).1 (x.step M fs).2.1).1, (steps M n (x.step M fs).1 (x.step M fs).2.1).2.1, (x.step M fs).2.2 ++ (steps M n (x.step M fs).1 (x.step M fs).2.1).2.2)

/-- One process after the other. -/
def after {A B : Type} : Prog A → (Out A → Prog B) → Prog B
  | .stop r, f => f r
  | .say s k, f => .say s (k.after f)
  | .look p k, f => .look p fun e => (k e).after f
  | .names p k, f => .names p fun l => (k l).after f
  | .hear g b p k, f => .hear g b p fun l => (k l).after f
  | .mkdir p k, f => .mkdir p fun r => (k r).after f
  | .create p k, f => .create p fun b => (k b).after f
  | .store p t k, f => .store p t (k.after f)

/-- Statements one after the other: an exception ends the process. -/
def bind {A B : Type} (x : Prog A) (k : A → Prog B) : Prog B := x.after fun r =>
  match r with
  | .ok a => k a
  | .thrown e => .stop (.thrown e)
  | .ub => .stop .ub

/-- Several things that are printed. -/
def sayAll {A : Type} : List Said → Prog A → Prog A
  | [], k => k
  | s :: l, k => .say s (sayAll l k)

/-- `Talk.announced`. -/
def announced {A : Type} (before : String) (x : Prog A) (after : String) : Prog A :=
  .say (.out before.toList) (x.bind fun a => .say (.out after.toList) (.stop (.ok a)))

/-- The contents of a file that is being written. -/
def stores {A : Type} (p : Path) : List Text → Prog A → Prog A
  | [], k => k
  | t :: l, k => .store p t (stores p l k)

/-- Processes one after the other, as `runAll`. -/
def all : List (Prog Unit) → Prog Unit
  | [] => .stop (.ok ())
  | x :: xs => x.bind fun _ => all xs

end Prog

/-- A file is written: how it ends if it can be opened, and if not. -/
def fileProg (drafts : Path → Text → List Text) (p : Path) (t : Text) (good bad : Out Unit) : Prog Unit :=
  .create p fun b => if b then .stores p (drafts p t ++ [t]) (.stop good) else .stop bad

/-- `std::fstream(path, std::ios::out)` and what is written to it: scene_algorithms.cpp:20-24, 46-51. -/
def streamProg (drafts : Path → Text → List Text) (p : Path) (w : Written) : Prog Unit := fileProg drafts p w.1 w.2 w.2

/-- `create_directory`. -/
def dirProg (p : Path) : Prog Unit := .mkdir p fun r => .stop r

/-- `OFFHandler::read`: io_off.cpp:22-51. -/
def offReadProg (rnd : ℚ → ℚ) (lf : Bool) (modes : Modes) (p : Path) : Prog Mesh :=
  if canRead modes then
    .look p fun e => .stop (match e with
      | some (.file t) => do
        let m ← Off.read rnd lf t
        .ok (m.setName (stem p))
      | _ => .thrown .filesystemError)
  else .stop (.thrown .filesystemError)

/-- The loop over a directory of OFF files: io_scene.cpp:62-74. -/
def buildingsProg (rnd : ℚ → ℚ) (lf : Bool) (modes : Modes) (p : Path) : List Text → Prog (List Mesh)
  | [] => .stop (.ok [])
  | n :: ns => .look (p ++ [n]) fun e =>
    match e with
    | some (.file _) =>
      if stem (p ++ [n]) != "terrain".toList then
        (offReadProg rnd lf modes (p ++ [n])).bind fun m => (buildingsProg rnd lf modes p ns).bind fun ms => .stop (.ok (m :: ms))
      else buildingsProg rnd lf modes p ns
    | _ => buildingsProg rnd lf modes p ns

section
variable {N L : Type}

/-- `SceneHandler::read`, OFF: io_scene.cpp:49-83. -/
def offSceneProg (ops : NodeOps N) (rnd : ℚ → ℚ) (lf : Bool) (modes : Modes) (p : Path) : Prog (Scene N) :=
  .look p fun e =>
    if e ≠ some .dir then .stop (.thrown .runtimeError)
    else .names p fun ns =>
      (buildingsProg rnd lf modes p ns).bind fun bs =>
      (offReadProg rnd lf modes (joinPath p "terrain.off".toList)).bind fun t => .stop (.ok (Scene.makeDefault ops bs t))

/-- `SceneHandler::read`, OBJ: io_scene.cpp:84-86, io_obj.cpp:39-64, 110-117. -/
def objSceneProg (ops : NodeOps N) (rnd : ℚ → ℚ) (modes : Modes) (p : Path) : Prog (Scene N) :=
  if canRead modes then
    .look p fun e => .stop (match e with
      | some (.file t) => do
        let ms ← Obj.read rnd t
        .ok (Scene.makeDefault ops (excludeMesh "terrain".toList ms).1 (excludeMesh "terrain".toList ms).2)
      | _ => .thrown .filesystemError)
  else .stop (.thrown .filesystemError)

/-- `T3DSHandler::T3DSHandler`: io_3ds.cpp:12-43, for reading. -/
def t3dsProg (load : Text → Option (File3ds L)) (p : Path) : Prog (Option (File3ds L)) :=
  .look p fun e => .stop (match e with
    | some (.file t) => .ok (load t)
    | _ => .thrown .filesystemError)

/-- `SceneTreeHandler::SceneTreeHandler`: io_scene_tree.cpp:11-18. -/
def treeProg (xml : Text → Option (List Elem)) (p : Path) : Prog (List Elem) :=
  .look p fun e => .stop (match e with
    | some (.file t) =>
      match xml t with
      | some d => .ok d
      | none => .thrown .runtimeError
    | _ => .thrown .runtimeError)

/-- `SceneHandler::read` in the mode `read`, with what it prints: io_scene.cpp:44-118. -/
def sceneProg (ops : NodeOps N) (lib : Libs L) (rnd : ℚ → ℚ) (lf : Bool) (f : SceneFormat) (p : Path) : Prog (Scene N) :=
  match f with
  | .off => offSceneProg ops rnd lf readMode p
  | .obj => objSceneProg ops rnd readMode p
  | .t3dsXml => .hear .t3dsXml false p fun l => Prog.sayAll (l.map .out) <|
    (t3dsProg lib.load p).bind fun file => (treeProg lib.xml (xmlPath p)).bind fun doc => .stop (t3dsSceneXml ops lib readMode file doc)
  | .t3ds => .hear .t3ds false p fun l => Prog.sayAll (l.map .out) <|
    ((t3dsProg lib.load p).bind fun file => (treeProg lib.xml (xmlPath p)).bind fun doc => .stop (t3dsSceneLevel ops lib readMode file doc)).after fun r =>
      match r with
      | .thrown e =>
        if e.isRuntime then .say (.err e) <| .hear .t3ds true p fun l => Prog.sayAll (l.map .out) <| (t3dsProg lib.load p).bind fun file => .stop (t3dsScenePlain ops lib readMode file)
        else .stop (.thrown e)
      | r => .stop r

/-- `OFFHandler::write`: io_off.cpp:53-68. -/
def offWriteProg (drafts : Path → Text → List Text) (modes : Modes) (p : Path) (m : Mesh) : Prog Unit :=
  if canSave modes then fileProg drafts p (Off.write m) (.ok ()) (.ok ()) else .stop (.thrown .filesystemError)

/-- `SceneHandler::write`, OFF: io_scene.cpp:122-144. -/
def offSceneWriteProg (drafts : Path → Text → List Text) (ops : NodeOps N) (modes : Modes) (p : Path) (s : Scene N) : Prog Unit :=
  (Prog.look p fun e =>
    if e = none then dirProg p
    else .look p fun e => if e = some .dir then .stop (.ok ()) else .stop (.thrown .runtimeError)).bind fun _ =>
  Prog.all ((s.buildings.map ops.back ++ [ops.back s.terrain]).map fun m => offWriteProg drafts modes (joinPath p (m.name ++ ".off".toList)) m)

/-- `SceneHandler::write`: io_scene.cpp:120-150. -/
def sceneWriteProg (drafts : Path → Text → List Text) (ops : NodeOps N) (f : SceneFormat) (modes : Modes) (p : Path) (s : Scene N) : Prog Unit :=
  match f with
  | .off => offSceneWriteProg drafts ops modes p s
  | .obj =>
    if canSave modes then
      match Obj.write (s.buildings.map ops.back ++ [ops.back s.terrain]) with
      | .ok t => fileProg drafts p t (.ok ()) (.ok ())
      | .thrown e => .stop (.thrown e)
      | .ub => .stop .ub
    else .stop (.thrown .filesystemError)
  | .t3dsXml => .stop (.thrown .logicError)
  | .t3ds => .stop (.thrown .logicError)

end

section
variable {N L K : Type} [Field K] [LinearOrder K] [FloorRing K]

/-- `VectorHandler::write`: io_vector.cpp:52-80. -/
def vectorProg (drafts : Path → Text → List Text) (C : Cgal K) (G : Gdal K) (p : Path) (f : FootPrint K) (labels : Bool) : Prog Unit :=
  fileProg drafts p (G.shp (f.toOgr C labels)) (.ok ()) (.thrown .filesystemError)

/-- `RasterHandler::write`: io_raster.cpp:51-86. -/
def rasterProg (drafts : Path → Text → List Text) (G : Gdal K) (p : Path) (r : Raster K) : Prog Unit :=
  if r.width ≠ 0 ∧ r.height ≠ 0 then fileProg drafts p (G.tiff r.toGdal) (.ok ()) .ub else .stop .ub

/-- `save_building_duals`: scene_algorithms.cpp:12-27. -/
def dualsProg (drafts : Path → Text → List Text) (root : Path) (bs : List (Text × Written)) : Prog Unit :=
  (dirProg (root ++ ["dual_graphs".toList])).bind fun _ =>
  Prog.all (bs.map fun b => streamProg drafts (joinPath (root ++ ["dual_graphs".toList]) (b.1 ++ ".txt".toList)) b.2)

/-- `save_building_prints`: scene_algorithms.cpp:28-55. -/
def printsProg (drafts : Path → Text → List Text) (C : Cgal K) (G : Gdal K) (root : Path) (ps : List (FootPrint K)) (labels : Bool) : Prog Unit :=
  (dirProg (root ++ ["vectors".toList])).bind fun _ =>
  Prog.all (ps.flatMap fun f =>
    [vectorProg drafts C G (joinPath (root ++ ["vectors".toList]) (f.name ++ ".shp".toList)) f labels,
     streamProg drafts (joinPath (root ++ ["vectors".toList]) (f.name ++ ".txt".toList)) (attributesText C G f, .ok ())])

/-- `save_building_rasters`: scene_algorithms.cpp:56-69. -/
def rastersProg (drafts : Path → Text → List Text) (G : Gdal K) (root : Path) (rs : List (Raster K)) : Prog Unit :=
  (dirProg (root ++ ["rasters".toList])).bind fun _ =>
  Prog.all (rs.map fun r => rasterProg drafts G (joinPath (root ++ ["rasters".toList]) (r.name ++ ".tiff".toList)) r)

/-- `save_scene_prints`: scene_algorithms.cpp:70-96. -/
def scenePrintsProg (drafts : Path → Text → List Text) (C : Cgal K) (lr : Bool) (G : Gdal K) (root : Path) (name : Text) (ps : List (FootPrint K)) (rast : Bool) (p : K) : Prog Unit :=
  (Prog.stop (sumFootPrints C ps FootPrint.empty)).bind fun s =>
  (vectorProg drafts C G (joinPath root (name ++ ".shp".toList)) s true).bind fun _ =>
  if rast then (Prog.stop (Raster.ofFootPrint C lr s p)).bind fun r => rasterProg drafts G (joinPath root (name ++ ".tiff".toList)) r
  else .stop (.ok ())

/-- Reading, pruning and saving the dual graphs: orthoproject.cpp:117-136, cityformat.cpp:117-130. -/
def inputProg (drafts : Path → Text → List Text) (T : Toolbox N L K) (path : Path) (format : Text) (prune terrain graphs : Bool) : Prog (Scene N) :=
  (Prog.stop (sceneHandlerNamed path format)).bind fun f =>
  (sceneProg T.ops T.lib T.rnd T.lf f path).bind fun s =>
  (Prog.stop (if prune then scenePrune T.prune terrain s else .ok s)).bind fun s =>
  (if graphs then Prog.announced "Saving brick duals... " (dualsProg drafts path.dropLast (s.buildings.map T.dual)) " Done.\n" else .stop (.ok ())).bind fun _ =>
  .stop (.ok s)

/-- The body of `main`: orthoproject.cpp:140-175. -/
def orthoProg (drafts : Path → Text → List Text) (T : Toolbox N L K) (args : Args) : Prog Unit :=
  (Prog.announced "Parsing arguments... " (.stop (orthoArgs T args)) "Done.\n").bind fun a =>
  .say (.out (orthoHeader T.G (rawText args "<scene>") a)) <|
  (inputProg drafts T a.path a.format a.prune a.terrain a.graphs).bind fun s =>
  if a.save then
    (Prog.announced "Projecting... " (.stop (orthoproject T.proj s a.terrain)) "Done.\n").bind fun ps =>
    (Prog.announced "Saving vector projections... " (printsProg drafts T.C T.G a.path.dropLast ps a.labels) "Done.\n").bind fun _ =>
    (if a.scene then Prog.announced "Summing , rasterizing and saving scene projections... "
        (scenePrintsProg drafts T.C T.lr T.G a.path.dropLast (stem a.path) ps (decide (a.pixel ≠ 0)) a.pixel) "Done.\n" else .stop (.ok ())).bind fun _ =>
    if a.pixel ≠ 0 then
      (Prog.announced "rasterizing projections... " (.stop (rasterizeScene T.C T.lr ps a.pixel)) "Done.\n").bind fun rs =>
      Prog.announced "Saving raster projections... " (rastersProg drafts T.G a.path.dropLast rs) "Done.\n"
    else .stop (.ok ())
  else .stop (.ok ())

/-- The body of `main`: cityformat.cpp:91-139. -/
def formatProg (drafts : Path → Text → List Text) (T : Toolbox N L K) (args : Args) : Prog Unit :=
  (Prog.stop (args.asBool "--formats")).bind fun _ =>
  (Prog.announced "Parsing arguments... " (.stop (formatArgs args)) "Done.\n").bind fun a =>
  .say (.out (formatHeader (rawText args "<scene>") (rawText args "<path>") a)) <|
  if a.formats then .say (.out formatsText) (.stop (.ok ()))
  else
    (inputProg drafts T a.path a.format a.prune a.terrain a.graphs).bind fun s =>
    (Prog.stop (sceneHandlerNamed a.outPath a.outFormat)).bind fun f => sceneWriteProg drafts T.ops f writeMode a.outPath s

/-- `main`: every exception is caught and printed: orthoproject.cpp:176-181, cityformat.cpp:140-145. -/
def mainProg (x : Prog Unit) : Prog Nat := x.after fun r =>
  match r with
  | .ok _ => .stop (.ok 0)
  | .thrown e => .say (.err e) (.stop (.ok 0))
  | .ub => .stop .ub

/-- `main` after docopt, as in `afterSays`. -/
def afterProg (doc version : Text) (argv : List Text) (main : Args → Prog Nat) : Docopt.Parsed → Prog Nat
  | .args a => main a
  | .exit n => Prog.sayAll (docoptSays doc version argv) (.stop (.ok n))

/-- The program orthoproject: orthoproject.cpp:140-182. -/
def orthoProcess (drafts : Path → Text → List Text) (T : Toolbox N L K) (version : Text) (argv : List Text) : Prog Nat :=
  afterProg orthoUsage ("orthoproject ".toList ++ version) argv (fun a => mainProg (orthoProg drafts T a)) (Docopt.docopt orthoUsage argv)

/-- The program cityformat: cityformat.cpp:91-146. -/
def formatProcess (drafts : Path → Text → List Text) (T : Toolbox N L K) (version : Text) (argv : List Text) : Prog Nat :=
  afterProg formatUsage ("orthoproject ".toList ++ version) argv (fun a => mainProg (formatProg drafts T a)) (Docopt.docopt formatUsage argv)

end

/-- Processes that run at the same time, with what they have printed so far, and the files they share. -/
structure Crowd (A : Type) where
  procs : List (Prog A × List Said)
  fs : Fs

/-- The process of the given number, if there is one, makes its next call. A call is atomic. -/
def Crowd.step {A : Type} (M : Machine) (c : Crowd A) (i : Nat) : Crowd A :=
  match c.procs[i]? with
  | none => c
  | some (x, l) => ⟨c.procs.set i ((x.step M c.fs).1, l ++ (x.step M c.fs).2.2), (x.step M c.fs).2.1⟩

/-- A schedule: the numbers of the processes, in the order in which they make their calls. -/
def Crowd.run {A : Type} (M : Machine) : Crowd A → List Nat → Crowd A
  | c, [] => c
  | c, i :: l => (c.step M i).run M l

end City
