import Verif.Model.Docopt
/-
Model of what the command line tools say on the terminal: the messages of /repo/src/bin/orthoproject.cpp, /repo/src/bin/cityformat.cpp,
/repo/src/lib/algorithms/scene_algorithms.cpp and /repo/src/lib/io/io_scene.cpp:108-112, and those of docopt. The texts `what()` of exceptions and of docopt's complaints
are not modelled, only that they are printed; what GDAL, lib3ds and CGAL print themselves is left out. `noise` is what the readers of 3DS files print
(unode.cpp:71-88, io_scene_tree.cpp:84).
-/
namespace City

/-- Something said on the terminal: a text on the standard output, `what()` of an exception on the standard error stream, or a complaint of docopt there. -/
inductive Said where
  | out (t : Text)
  | err (e : Exc)
  | complaint
  deriving DecidableEq

/-- A program with files that speaks: the outcome, the files afterwards and what was said. -/
abbrev Talk (A : Type) := Fs → Out A × Fs × List Said

namespace Talk

/-- Statements one after the other, as in `Act.bind`. -/
def bind {A B : Type} (x : Talk A) (k : A → Talk B) : Talk B := fun fs =>
  match x fs with
  | (.ok a, fs', l) => ((k a fs').1, (k a fs').2.1, l ++ (k a fs').2.2)
  | (.thrown e, fs', l) => (.thrown e, fs', l)
  | (.ub, fs', l) => (.ub, fs', l)

/-- Statements that print nothing. -/
def quiet {A : Type} (x : Act A) : Talk A := fun fs => ((x fs).1, (x fs).2, [])

/-- `std::cout << t`. -/
def say (t : Text) : Talk Unit := fun fs => (.ok (), fs, [.out t])

/-- A function that prints a message when it begins and another one when it ends; an exception skips the second: the pattern of scene_algorithms.cpp:14-26, 30-54, 58-68, 72-95, 100-114, 120-131 and
of the constructors orthoproject.cpp:68-90, cityformat.cpp:46-62. The standard output is flushed after both. -/
def announced {A : Type} (before : String) (x : Act A) (after : String) : Talk A := fun fs =>
  match x fs with
  | (.ok a, fs') => (.ok a, fs', [.out before.toList, .out after.toList])
  | (.thrown e, fs') => (.thrown e, fs', [.out before.toList])
  | (.ub, fs') => (.ub, fs', [.out before.toList])

end Talk

/-- `operator <<(ostream, boost::filesystem::path)`: the text in double quotes, with `&` before a double quote and before `&`. -/
def quotedPath (t : Text) : Text := '"' :: (t.flatMap fun c => if c = '"' ∨ c = '&' then ['&', c] else [c]) ++ ['"']

/-- `operator <<(ostream, bool)` after `std::boolalpha`. -/
def alphaText (b : Bool) : Text := if b then "true".toList else "false".toList

/-- A line: a label and a value. -/
def fieldLine (label : String) (v : Text) : Text := label.toList ++ v ++ ['\n']

/-- A text of the arguments as it was typed, the empty text if there is none. -/
def rawText (args : Args) (name : String) : Text :=
  match args.asString name with
  | .ok t => t
  | _ => []

section
variable {N L K : Type} [Field K] [LinearOrder K] [FloorRing K]

/-- `operator <<(ostream, Arguments)` of orthoproject, and the line break after it: orthoproject.cpp:97-114, 149. `raw` is the path as it was typed. -/
def orthoHeader (G : Gdal K) (raw : Text) (a : OrthoArgs K) : Text :=
  "Arguments:\n".toList ++ fieldLine "  Input path: " (quotedPath raw) ++ fieldLine "  Input format: " a.format ++ fieldLine "  Pruning faces: " (alphaText a.prune) ++
  fieldLine "  Caching buildings: " (alphaText a.cache) ++ fieldLine "  Taking care of terrain: " (alphaText a.terrain) ++ fieldLine "  Saving dual graphs: " (alphaText a.graphs) ++
  fieldLine "  Saving: " (alphaText a.save) ++ fieldLine "     Saving projections: " (alphaText a.save) ++ fieldLine "     Summing over whole scene: " (alphaText a.scene) ++
  fieldLine "     Saving projection error fields: " (alphaText a.labels) ++ fieldLine "  Rasterizing: " (alphaText (decide (a.pixel ≠ 0))) ++
  fieldLine "     Pixel size: " (G.num a.pixel) ++ ['\n']

/-- `operator <<(ostream, Arguments)` of cityformat, and the line break after it: cityformat.cpp:71-89, 102. -/
def formatHeader (raw rawOut : Text) (a : FormatArgs) : Text :=
  (if a.formats then "Arguments:\n".toList ++ fieldLine "  Possible formats: " (alphaText a.formats)
   else "Arguments:\n".toList ++ fieldLine "  Input path: " (quotedPath raw) ++ fieldLine "  Input format: " a.format ++ fieldLine "  Pruning faces: " (alphaText a.prune) ++
    fieldLine "  Taking care of terrain: " (alphaText a.terrain) ++ fieldLine "  Saving dual graphs: " (alphaText a.graphs) ++ fieldLine "  Output path: " (quotedPath rawOut) ++
    fieldLine "  Output format: " a.outFormat) ++ ['\n']

/-- The list of formats: cityformat.cpp:106-111. -/
def formatsText : Text :=
  "Possible formats are: ".toList ++ (supportedFormats.dropLast.flatMap fun f => f ++ ", ".toList) ++ supportedFormats.getLastD [] ++ ['\n']

/-- What is said while a scene is read: nothing for OFF and OBJ files. In the format 3DS a runtime_error of the first attempt is printed before the second one: io_scene.cpp:95-114. -/
def readSays (T : Toolbox N L K) (noise : SceneFormat → Bool → Path → Fs → List Text) (f : SceneFormat) (p : Path) (fs : Fs) : List Said :=
  match f with
  | .off => []
  | .obj => []
  | .t3dsXml => (noise .t3dsXml false p fs).map .out
  | .t3ds => (noise .t3ds false p fs).map .out ++
    match (do
      let file ← T3ds.construct T.lib.load readMode p fs
      let doc ← SceneTree.construct T.lib.xml (xmlPath p) fs
      t3dsSceneLevel T.ops T.lib readMode file doc : Out (Scene N)) with
    | .thrown e => if e.isRuntime then .err e :: (noise .t3ds true p fs).map .out else []
    | _ => []

/-- `SceneHandler(path, {{"read", true}}, format).read()`: orthoproject.cpp:119-123, cityformat.cpp:117-121. -/
def readTalk (T : Toolbox N L K) (noise : SceneFormat → Bool → Path → Fs → List Text) (path : Path) (format : Text) : Talk (Scene N) := fun fs =>
  match sceneHandlerNamed path format with
  | .ok f => (sceneRead T.ops T.lib T.rnd T.lf f readMode path (T.listing fs path) fs, fs, readSays T noise f path fs)
  | .thrown e => (.thrown e, fs, [])
  | .ub => (.ub, fs, [])

/-- Reading, pruning and saving the dual graphs: orthoproject.cpp:117-136, cityformat.cpp:117-130. -/
def inputTalk (T : Toolbox N L K) (noise : SceneFormat → Bool → Path → Fs → List Text) (path : Path) (format : Text) (prune terrain graphs : Bool) : Talk (Scene N) :=
  Talk.bind (readTalk T noise path format) fun s =>
  Talk.bind (Talk.quiet (Act.reads fun _ => if prune then scenePrune T.prune terrain s else .ok s)) fun s =>
  Talk.bind (if graphs then Talk.announced "Saving brick duals... " (saveBuildingDuals path.dropLast (s.buildings.map T.dual)) " Done.\n" else Talk.quiet Act.skip) fun _ =>
  Talk.quiet (Act.reads fun _ => .ok s)

/-- The body of `main`: orthoproject.cpp:140-175, with the messages of scene_algorithms.cpp. -/
def orthoTalk (T : Toolbox N L K) (noise : SceneFormat → Bool → Path → Fs → List Text) (args : Args) : Talk Unit :=
  Talk.bind (Talk.announced "Parsing arguments... " (Act.reads fun _ => orthoArgs T args) "Done.\n") fun a =>
  Talk.bind (Talk.say (orthoHeader T.G (rawText args "<scene>") a)) fun _ =>
  Talk.bind (inputTalk T noise a.path a.format a.prune a.terrain a.graphs) fun s =>
  if a.save then
    Talk.bind (Talk.announced "Projecting... " (Act.reads fun _ => orthoproject T.proj s a.terrain) "Done.\n") fun ps =>
    Talk.bind (Talk.announced "Saving vector projections... " (saveBuildingPrints T.C T.G a.path.dropLast ps a.labels) "Done.\n") fun _ =>
    Talk.bind (if a.scene then Talk.announced "Summing , rasterizing and saving scene projections... "
        (saveScenePrints T.C T.lr T.G a.path.dropLast (stem a.path) ps (decide (a.pixel ≠ 0)) a.pixel) "Done.\n" else Talk.quiet Act.skip) fun _ =>
    if a.pixel ≠ 0 then
      Talk.bind (Talk.announced "rasterizing projections... " (Act.reads fun _ => rasterizeScene T.C T.lr ps a.pixel) "Done.\n") fun rs =>
      Talk.announced "Saving raster projections... " (saveBuildingRasters T.G a.path.dropLast rs) "Done.\n"
    else Talk.quiet Act.skip
  else Talk.quiet Act.skip

/-- The body of `main`: cityformat.cpp:91-139; `--formats` is read before the first message: cityformat.cpp:45. -/
def formatTalk (T : Toolbox N L K) (noise : SceneFormat → Bool → Path → Fs → List Text) (args : Args) : Talk Unit :=
  Talk.bind (Talk.quiet (Act.reads fun _ => args.asBool "--formats")) fun _ =>
  Talk.bind (Talk.announced "Parsing arguments... " (Act.reads fun _ => formatArgs args) "Done.\n") fun a =>
  Talk.bind (Talk.say (formatHeader (rawText args "<scene>") (rawText args "<path>") a)) fun _ =>
  if a.formats then Talk.say formatsText
  else
    Talk.bind (inputTalk T noise a.path a.format a.prune a.terrain a.graphs) fun s =>
    Talk.bind (Talk.quiet (Act.reads fun _ => sceneHandlerNamed a.outPath a.outFormat)) fun f =>
    Talk.quiet fun fs => sceneWrite T.ops f writeMode a.outPath s fs

/-- `main`: every exception is caught and printed: orthoproject.cpp:176-181, cityformat.cpp:140-145. -/
def mainTalk (run : Talk Unit) : Talk Nat := fun fs =>
  match run fs with
  | (.ub, fs', l) => (.ub, fs', l)
  | (.ok _, fs', l) => (.ok 0, fs', l)
  | (.thrown e, fs', l) => (.ok 0, fs', l ++ [.err e])

/-- What docopt prints when it ends the program: the usage for `--help`, the version for `--version`, otherwise a complaint, an empty line and the usage. -/
def docoptSays (doc version : Text) (argv : List Text) : List Said :=
  match Docopt.createPattern doc with
  | none => [.complaint]
  | some (_, os) =>
    match Docopt.parseArgv none argv os with
    | none => [.complaint, .out ['\n'], .out (doc ++ ['\n'])]
    | some items =>
      if Docopt.isSet "-h".toList items || Docopt.isSet "--help".toList items then [.out (doc ++ ['\n'])]
      else if Docopt.isSet "--version".toList items then [.out (version ++ ['\n'])]
      else [.complaint, .out ['\n'], .out (doc ++ ['\n'])]

/-- `main` after docopt, as in `afterDocopt`. -/
def afterSays (doc version : Text) (argv : List Text) (main : Args → Talk Nat) : Docopt.Parsed → Talk Nat
  | .args a => main a
  | .exit n => fun fs => (.ok n, fs, docoptSays doc version argv)

/-- The program orthoproject; `version` is the macro `VERSION`: orthoproject.cpp:140-182. -/
def orthoConsole (T : Toolbox N L K) (noise : SceneFormat → Bool → Path → Fs → List Text) (version : Text) (argv : List Text) : Talk Nat :=
  afterSays orthoUsage ("orthoproject ".toList ++ version) argv (fun a => mainTalk (orthoTalk T noise a)) (Docopt.docopt orthoUsage argv)

/-- The program cityformat: cityformat.cpp:91-146. The text of its version begins with the name of the other program: cityformat.cpp:98. -/
def formatConsole (T : Toolbox N L K) (noise : SceneFormat → Bool → Path → Fs → List Text) (version : Text) (argv : List Text) : Talk Nat :=
  afterSays formatUsage ("orthoproject ".toList ++ version) argv (fun a => mainTalk (formatTalk T noise a)) (Docopt.docopt formatUsage argv)

end
end City
