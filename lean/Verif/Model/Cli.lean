import Verif.Model.Tools
/-
Model of the command line tools: /repo/src/bin/orthoproject.cpp and /repo/src/bin/cityformat.cpp. `Args` is the map that docopt returns; here it is arbitrary.
Model/Docopt has docopt itself, which ends the program for `--help`, `--version` and command lines that do not match. Messages on the standard streams are in Model/Console.
-/
namespace City

/-- `docopt::value`. -/
inductive Arg where
  | empty
  | bool (b : Bool)
  | num (n : Nat)
  | str (t : Text)
  | list (l : List Text)
  deriving DecidableEq

/-- `std::map<std::string, docopt::value>`. -/
abbrev Args := Text → Option Arg

namespace Args

/-- `docopt_args.at(name)`. -/
def get (args : Args) (name : Text) : Out Arg :=
  match args name with
  | some a => .ok a
  | none => .thrown .outOfRange

/-- `docopt_args.at(name).asBool()`: docopt throws runtime_error for another kind of value. -/
def asBool (args : Args) (name : String) : Out Bool := do
  let a ← args.get name.toList
  match a with
  | .bool b => .ok b
  | _ => .thrown .runtimeError

/-- `docopt_args.at(name).asString()`. -/
def asString (args : Args) (name : String) : Out Text := do
  let a ← args.get name.toList
  match a with
  | .str t => .ok t
  | _ => .thrown .runtimeError

/-- A switch that is read under a condition and is false otherwise: orthoproject.cpp:80-84. -/
def boolIf (args : Args) (c : Bool) (name : String) : Out Bool := if c then args.asBool name else .ok false

end Args

/-- A program with files: the outcome, and the files afterwards. -/
abbrev Act (A : Type) := Fs → Out A × Fs

namespace Act

/-- Statements one after the other; an exception ends the program, the files stay as they are at that time. -/
def bind {A B : Type} (x : Act A) (k : A → Act B) : Act B := fun fs =>
  match x fs with
  | (.ok a, fs') => k a fs'
  | (.thrown e, fs') => (.thrown e, fs')
  | (.ub, fs') => (.ub, fs')

/-- A computation that does not write. -/
def reads {A : Type} (x : Fs → Out A) : Act A := fun fs => (x fs, fs)

/-- No operation. -/
def skip : Act Unit := fun fs => (.ok (), fs)

end Act

/-- What the tools use of the other parts of the library. -/
structure Toolbox (N L K : Type) where
  ops : NodeOps N
  lib : Libs L
  rnd : ℚ → ℚ
  /-- evaluation order of the arguments in the OFF reader -/
  lf : Bool
  /-- the directory iterator -/
  listing : Fs → Path → List Text
  prune : N → Out N
  /-- the name of a node and its dual graph -/
  dual : N → Text × Written
  /-- `FootPrint(UNode)` -/
  proj : N → Out (FootPrint K)
  C : Cgal K
  /-- evaluation order in the rasteriser -/
  lr : Bool
  G : Gdal K
  /-- `std::stod` -/
  stod : Text → Out K

section
variable {N L K : Type} [Field K] [LinearOrder K] [FloorRing K]

/-- `std::map<std::string, bool>{{"read", true}}`. -/
def readMode : Modes := fun n => if n = "read".toList then some true else none

/-- `Arguments` of orthoproject: orthoproject.cpp:36-66. -/
structure OrthoArgs (K : Type) where
  path : Path
  format : Text
  prune : Bool
  cache : Bool
  graphs : Bool
  terrain : Bool
  save : Bool
  scene : Bool
  labels : Bool
  pixel : K

/-- The pixel size: orthoproject.cpp:87-88; the initial value is 0: orthoproject.cpp:60. -/
def pixelArg (T : Toolbox N L K) (args : Args) (rast : Bool) : Out K :=
  if rast then (do
    let t ← args.asString "--pixel-size"
    T.stod t)
  else .ok 0

/-- `Arguments::Arguments`: orthoproject.cpp:68-91. -/
def orthoArgs (T : Toolbox N L K) (args : Args) : Out (OrthoArgs K) := do
  let path ← args.asString "<scene>"
  let format ← args.asString "--input-format"
  let prune ← args.asBool "--prune"
  let cache ← args.asBool "--cache"
  let graphs ← args.asBool "--graphs"
  let terrain ← args.asBool "--terrain"
  let save ← args.asBool "save"
  let scene ← args.boolIf save "--scene"
  let labels ← args.boolIf save "--labels"
  let rast ← args.asBool "rasterize"
  let pixel ← pixelArg T args rast
  .ok ⟨splitSlash path, format, prune, cache, graphs, terrain, save, scene, labels, pixel⟩

/-- Reading, pruning and saving the dual graphs: orthoproject.cpp:119-136, cityformat.cpp:117-130. -/
def inputScene (T : Toolbox N L K) (path : Path) (format : Text) (prune terrain graphs : Bool) : Act (Scene N) :=
  Act.bind (Act.reads fun fs => do
    let f ← sceneHandlerNamed path format
    sceneRead T.ops T.lib T.rnd T.lf f readMode path (T.listing fs path) fs) fun s =>
  Act.bind (Act.reads fun _ => if prune then scenePrune T.prune terrain s else .ok s) fun s =>
  Act.bind (if graphs then saveBuildingDuals path.dropLast (s.buildings.map T.dual) else Act.skip) fun _ =>
  Act.reads fun _ => .ok s

/-- The body of `main`: orthoproject.cpp:143-180. -/
def orthoRun (T : Toolbox N L K) (args : Args) : Act Unit :=
  Act.bind (Act.reads fun _ => orthoArgs T args) fun a =>
  Act.bind (inputScene T a.path a.format a.prune a.terrain a.graphs) fun s =>
  if a.save then
    Act.bind (Act.reads fun _ => orthoproject T.proj s a.terrain) fun ps =>
    Act.bind (saveBuildingPrints T.C T.G a.path.dropLast ps a.labels) fun _ =>
    Act.bind (if a.scene then saveScenePrints T.C T.lr T.G a.path.dropLast (stem a.path) ps (decide (a.pixel ≠ 0)) a.pixel else Act.skip) fun _ =>
    if a.pixel ≠ 0 then
      Act.bind (Act.reads fun _ => rasterizeScene T.C T.lr ps a.pixel) fun rs =>
      saveBuildingRasters T.G a.path.dropLast rs
    else Act.skip
  else Act.skip

/-- `main`: the exit status. Every exception is caught and printed, then `EXIT_SUCCESS` is returned: orthoproject.cpp:140-187, cityformat.cpp:96-147. -/
def mainOf (run : Act Unit) : Act Nat := fun fs =>
  match run fs with
  | (.ub, fs') => (.ub, fs')
  | (_, fs') => (.ok 0, fs')

/-- `Arguments` of cityformat: cityformat.cpp:28-44, 68-70. -/
structure FormatArgs where
  formats : Bool
  path : Path
  format : Text
  prune : Bool
  graphs : Bool
  terrain : Bool
  outPath : Path
  outFormat : Text

/-- `Arguments::Arguments`: cityformat.cpp:46-64. -/
def formatArgs (args : Args) : Out FormatArgs := do
  let formats ← args.asBool "--formats"
  if formats then .ok ⟨true, [], [], false, false, false, [], []⟩
  else do
    let path ← args.asString "<scene>"
    let format ← args.asString "--input-format"
    let prune ← args.asBool "--prune"
    let graphs ← args.asBool "--graphs"
    let terrain ← args.asBool "--terrain"
    let outPath ← args.asString "<path>"
    let outFormat ← args.asString "--output-format"
    .ok ⟨false, splitSlash path, format, prune, graphs, terrain, splitSlash outPath, outFormat⟩

/-- The body of `main`: cityformat.cpp:98-140. -/
def formatRun (T : Toolbox N L K) (args : Args) : Act Unit :=
  Act.bind (Act.reads fun _ => formatArgs args) fun a =>
  if a.formats then Act.skip
  else
    Act.bind (inputScene T a.path a.format a.prune a.terrain a.graphs) fun s =>
    Act.bind (Act.reads fun _ => sceneHandlerNamed a.outPath a.outFormat) fun f =>
    fun fs => sceneWrite T.ops f writeMode a.outPath s fs

/-- `orthoproject`. -/
def orthoMain (T : Toolbox N L K) (args : Args) : Act Nat := mainOf (orthoRun T args)

/-- `cityformat`. -/
def formatMain (T : Toolbox N L K) (args : Args) : Act Nat := mainOf (formatRun T args)

end
end City
