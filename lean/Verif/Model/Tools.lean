import Verif.Model.Gis
import Verif.Model.Scene
import Verif.Model.Node
/-
Model of /repo/src/include/io/Adjacency_stream/adjacency_stream.h, of the dual graph of a node (unode.cpp:506-522),
/repo/src/lib/algorithms/scene_algorithms.cpp, /repo/src/lib/scene/scene.cpp:132-147 and of the tools /repo/src/bin/*.cpp.
Messages on the standard streams are in Model/Console.
-/
namespace City

/-- `ostream << bool` without `boolalpha`. -/
def boolText (b : Bool) : Text := if b then ['1'] else ['0']

/-- The columns before the last: adjacency_stream.h:66-67. -/
def rowText (m : List Bool) (start : Nat) : List Nat → Out Text
  | [] => .ok []
  | c :: cs => do
    let b ← Out.atOr m (start + c)
    let r ← rowText m start cs
    .ok (boolText b ++ ' ' :: r)

/-- The rows: adjacency_stream.h:64-69. -/
def rowsText (m : List Bool) (n : Nat) : List Nat → Out Text
  | [] => .ok []
  | row :: rows => do
    let t ← rowText m (row * n) (List.range (n - 1))
    let b ← Out.atOr m (row * n + (n - 1))
    let r ← rowsText m n rows
    .ok (t ++ boolText b ++ '\n' :: r)

/-- `Adjacency_stream << std::vector<bool>`: adjacency_stream.h:58-71. The rounded down square root of a double is `Nat.sqrt` for sizes below 2^52. -/
def adjacencyText (m : List Bool) : Out Text :=
  if Nat.sqrt m.length * Nat.sqrt m.length ≠ m.length then .thrown .logicError
  else rowsText m (Nat.sqrt m.length) (List.range (Nat.sqrt m.length))

/-- What a stream has received when the writer returns or throws. -/
abbrev Written := Text × Out Unit

/-- The lines of the facets: unode.cpp:508-515; `attr f` is the text of the attributes of a facet. -/
def facetLines (attr : Nat → Out Text) : List Nat → Written
  | [] => ([], .ok ())
  | f :: fs =>
    match attr f with
    | .ok t => (t ++ '\n' :: (facetLines attr fs).1, (facetLines attr fs).2)
    | .thrown e => ([], .thrown e)
    | .ub => ([], .ub)

/-- `Adjacency_stream << UNode`: unode.cpp:506-522. -/
def dualText {K : Type} (attr : Nat → Out Text) (S : Surf K) : Written :=
  match facetLines attr S.fs with
  | (t, .ok ()) =>
    match (do let m ← S.adjacencyMatrix
              adjacencyText m : Out Text) with
    | .ok a => (t ++ a ++ ['\n'], .ok ())
    | .thrown e => (t, .thrown e)
    | .ub => (t, .ub)
  | r => r

/-- `boost::filesystem::create_directory`. -/
def makeDir (p : Path) (fs : Fs) : Out Unit × Fs :=
  match fs p with
  | some .dir => (.ok (), fs)
  | some (.file _) => (.thrown .filesystemError, fs)
  | none => if fs p.dropLast = some .dir then (.ok (), fs.set p .dir) else (.thrown .filesystemError, fs)

/-- Statements one after the other. -/
def andThen (r : Out Unit × Fs) (k : Fs → Out Unit × Fs) : Out Unit × Fs :=
  match r with
  | (.ok (), fs) => k fs
  | (.thrown e, fs) => (.thrown e, fs)
  | (.ub, fs) => (.ub, fs)

/-- Operations one after the other; the first exception ends it. -/
def runAll : List Writer → Writer
  | [], fs => (.ok (), fs)
  | w :: ws, fs => andThen (w fs) (runAll ws)

/-- `std::fstream(path, std::ios::out)` and what is written to it. -/
def streamPut (p : Path) (w : Written) : Writer := fun fs => (w.2, fs.put p w.1)

/-- `save_building_duals`: scene_algorithms.cpp:12-27, for the names and duals of the buildings. -/
def saveBuildingDuals (root : Path) (bs : List (Text × Written)) : Writer := fun fs =>
  andThen (makeDir (root ++ ["dual_graphs".toList]) fs)
    (runAll (bs.map fun b => streamPut (joinPath (root ++ ["dual_graphs".toList]) (b.1 ++ ".txt".toList)) b.2))

/-- `std::map<std::string,bool>{{"write", true}}`. -/
def writeMode : Modes := fun n => if n = "write".toList then some true else none

section
variable {K : Type} [Field K] [LinearOrder K]

/-- `std::copy` to an `ostream_iterator<double>` with the separator " ". -/
def numLine (G : Gdal K) (xs : List K) : Text := (xs.map fun x => G.num x ++ [' ']).flatten ++ ['\n']

/-- The attributes file of a footprint: scene_algorithms.cpp:45-52. -/
def attributesText (C : Cgal K) (G : Gdal K) (f : FootPrint K) : Text :=
  numLine G (f.brick.areas C) ++ numLine G (f.brick.edgeLengths C G.len)

/-- The files of one building: scene_algorithms.cpp:35-52. -/
def printFiles (C : Cgal K) (G : Gdal K) (dir : Path) (labels : Bool) (f : FootPrint K) : List Writer :=
  [vectorPut C G writeMode (joinPath dir (f.name ++ ".shp".toList)) f labels,
   streamPut (joinPath dir (f.name ++ ".txt".toList)) (attributesText C G f, .ok ())]

/-- `save_building_prints`: scene_algorithms.cpp:28-55. -/
def saveBuildingPrints (C : Cgal K) (G : Gdal K) (root : Path) (ps : List (FootPrint K)) (labels : Bool) : Writer := fun fs =>
  andThen (makeDir (root ++ ["vectors".toList]) fs) (runAll (ps.flatMap (printFiles C G (root ++ ["vectors".toList]) labels)))

/-- `save_building_rasters`: scene_algorithms.cpp:56-69. -/
def saveBuildingRasters (G : Gdal K) (root : Path) (rs : List (Raster K)) : Writer := fun fs =>
  andThen (makeDir (root ++ ["rasters".toList]) fs)
    (runAll (rs.map fun r => rasterPut G writeMode (joinPath (root ++ ["rasters".toList]) (r.name ++ ".tiff".toList)) r))
end

section
variable {K : Type} [Field K] [LinearOrder K] [FloorRing K] {N : Type}

/-- `std::accumulate` of footprints: scene_algorithms.cpp:74-78. -/
def sumFootPrints (C : Cgal K) : List (FootPrint K) → FootPrint K → Out (FootPrint K)
  | [], a => .ok a
  | f :: fs, a => do
    let a' ← a.add C f
    sumFootPrints C fs a'

/-- `save_scene_prints`: scene_algorithms.cpp:70-96; the default argument `label` of `VectorHandler::write` is true: io_vector.h:25. -/
def saveScenePrints (C : Cgal K) (lr : Bool) (G : Gdal K) (root : Path) (name : Text) (ps : List (FootPrint K)) (rast : Bool) (p : K) : Writer := fun fs =>
  match sumFootPrints C ps FootPrint.empty with
  | .thrown e => (.thrown e, fs)
  | .ub => (.ub, fs)
  | .ok s =>
    andThen (vectorPut C G writeMode (joinPath root (name ++ ".shp".toList)) s true fs) fun fs' =>
      if rast then
        match Raster.ofFootPrint C lr s p with
        | .ok r => rasterPut G writeMode (joinPath root (name ++ ".tiff".toList)) r fs'
        | .thrown e => (.thrown e, fs')
        | .ub => (.ub, fs')
      else (.ok (), fs')

/-- `orthoproject`: scene_algorithms.cpp:98-117: a vector of default footprints is overwritten. `proj` is `FootPrint(UNode)`. -/
def orthoproject (proj : N → Out (FootPrint K)) (s : Scene N) (terrain : Bool) : Out (List (FootPrint K)) := do
  let fps ← Out.mapM proj s.buildings
  let v ← writeOver (List.replicate (s.buildings.length + if terrain then 1 else 0) FootPrint.empty) fps
  if terrain then do
    let t ← proj s.terrain
    .ok (v.set s.buildings.length t)
  else .ok v

/-- `rasterize_scene`: scene_algorithms.cpp:118-134. -/
def rasterizeScene (C : Cgal K) (lr : Bool) (ps : List (FootPrint K)) (p : K) : Out (List (Raster K)) := do
  let rs ← Out.mapM (fun f => Raster.ofFootPrint C lr f p) ps
  writeOver (List.replicate ps.length Raster.empty) rs

/-- `Scene::prune`: scene.cpp:132-147. -/
def scenePrune (pr : N → Out N) (terrain : Bool) (s : Scene N) : Out (Scene N) := do
  let bs ← Out.mapM pr s.buildings
  if terrain then do
    let t ← pr s.terrain
    .ok { s with buildings := bs, terrain := t }
  else .ok { s with buildings := bs }
end

end City
