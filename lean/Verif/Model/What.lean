import Verif.Model.Scene
import Verif.Model.Gis
/-
The texts of the exceptions, `what()`: /repo/src/include/io/Off_stream/off_stream.h, /repo/src/include/io/Obj_stream/obj_stream.h, /repo/src/lib/io/io_off.cpp, io_obj.cpp, io_3ds.cpp,
io_vector.cpp, io_raster.cpp, io_scene.cpp, io_scene_tree.cpp, /repo/src/lib/shadow/face.cpp, /repo/src/lib/algorithms/io_algorithms.cpp and
/repo/src/lib/projection/face_projection.cpp:293-307. The functions of the other modules again, with the texts. `Props/What.lean` proves that they are the same functions if the texts are left out.
A path is given twice: as the place it names, `p`, and as it is spelled, `s`, which is `filepath.string()`.
-/
namespace City

/-- Outcome of a call, with the text of the exception. `none`: a text that the standard library or another library makes. -/
inductive Told (A : Type) where
  | ok (a : A)
  | thrown (e : Exc) (what : Option Text)
  | ub
  deriving DecidableEq

namespace Told
variable {A B : Type}

/-- Sequencing. -/
def bind (x : Told A) (f : A → Told B) : Told B :=
  match x with
  | ok a => f a
  | thrown e w => thrown e w
  | ub => ub

/-- The outcome without the text. -/
def out : Told A → Out A
  | ok a => .ok a
  | thrown e _ => .thrown e
  | ub => .ub

/-- A call whose exceptions of each class have one text. -/
def named (w : Exc → Option Text) : Out A → Told A
  | .ok a => ok a
  | .thrown e => thrown e (w e)
  | .ub => ub

/-- Calls for all elements, in order. -/
def mapM (f : A → Told B) : List A → Told (List B)
  | [] => ok []
  | a :: l => (f a).bind fun b => (mapM f l).bind fun bs => ok (b :: bs)

end Told

/-- What the libraries append to the texts: `what()` of a `filesystem_error` is the text, `: ` and the message of the error code (`no_such_file_or_directory` or `io_error`),
that of an `ios_base::failure` likewise. -/
structure Suffixes where
  noent : Text
  io : Text
  stream : Text

/-- io_off.cpp:37, io_obj.cpp:53. -/
def missingText (s : Text) : Text := "This file: ".toList ++ s ++ " cannot be found! You should check the file path.".toList

/-- io_3ds.cpp:35, io_vector.cpp:39, io_raster.cpp:37. -/
def missingQuoted (s : Text) : Text := "This file \"".toList ++ s ++ "\" cannot be found! You should check the file path".toList

/-- io_off.cpp:44, 63, io_obj.cpp:60, 78, io_3ds.cpp:109, 186, 270, io_vector.cpp:46, 77, io_raster.cpp:44, 80: printed with `boolalpha` when the mode is not set. -/
def modeText (k : Text) : Text :=
  "The ".toList ++ k ++ " mode is set to:false! You should set it as follows: 'modes[\"".toList ++ k ++ "\"] = true'".toList

/-- io_vector.cpp:30, io_raster.cpp:28. -/
def cannotOpen (s : Text) : Text := "GDAL could not open: ".toList ++ s

/-- io_vector.cpp:67. -/
def cannotMake (s : Text) : Text := "GDAL could not open: \"".toList ++ s ++ "\" as an ESRI Shapefile".toList

/-- off_stream.h:103, obj_stream.h:124. -/
def onlyComments : Text := "The stream contains only comments and/or empty lines!".toList

/-- off_stream.h:106. -/
def notOff : Text := "Not identified as OFF format! OFF files starts with a 'OFF' hearder line.".toList

/-- off_stream.h:109. -/
def onlyHeader : Text := "The stream contains only the header; nothing to parse!".toList

/-- off_stream.h:191. -/
def threeIntegers : Text := "Error parsing the second line! There should be 3 integers.".toList

/-- off_stream.h:193. -/
def thirdZero : Text := "Error parsing the second line! The first and second integers should be positive and the third is always equal to 0.".toList

/-- off_stream.h:195. -/
def wrongLines : Text := "Error parsing the second line! The file should exactly contain the header, the sizes, the points and the faces: no more and no less.".toList

/-- off_stream.h:259. -/
def wrongFacet : Text := "Error parsing facet! The number of points parsed do not match the number of points in the line.".toList

/-- face.cpp:27, 33. -/
def fewVertices : Text := "You must have at least three vertices to define a face!".toList

/-- io_algorithms.cpp:42. -/
def noPoints : Text := "Unable to read points!".toList

namespace Off

/-- `read_header`: off_stream.h:181-198: the vector of sizes has three elements whatever was read, so that line 191 is never reached. -/
def readHeaderSays (lines : List Text) (line1 : Text) : Told (Nat × Nat) :=
  let ns := scanNats line1
  if 3 < ns.length then .ub
  else
    let sizes := ns ++ List.replicate (3 - ns.length) 0
    if sizes.length ≠ 3 then .thrown .rangeError (some threeIntegers)
    else if sizes.getD 2 0 ≠ 0 then .thrown .rangeError (some thirdZero)
    else if lines.length ≠ (2 + sizes.getD 0 0 + sizes.getD 1 0) % szMod then .thrown .rangeError (some wrongLines)
    else .ok (sizes.getD 0 0, sizes.getD 1 0)

/-- The lambda of `read_faces`: off_stream.h:244-261: the vector has `n` elements whatever was read, so that line 259 is never reached. -/
def fillIndexesSays (n : Nat) (ns : List Nat) : Told Face :=
  if 2 ^ 60 ≤ n then .thrown .lengthError none
  else if n < ns.length then .ub
  else
    let indexes := ns ++ List.replicate (n - ns.length) 0
    if indexes.length ≠ n then .thrown .rangeError (some wrongFacet)
    else .named (fun _ => some fewVertices) (Face.mk? indexes)

/-- The lambda of off_stream.h:244-261. -/
def parseFaceSays (l : Text) : Told Face :=
  match scanNat l with
  | .got n rest => fillIndexesSays n (scanNats rest)
  | .fail stored => fillIndexesSays (stored.getD 0) []

/-- `read_faces`: off_stream.h:229-265. -/
def readFacesSays (lines : List Text) (shift n : Nat) : Told (List Face) :=
  (Told.named (fun _ => none) (slice lines shift n)).bind fun b => Told.mapM parseFaceSays b

/-- `Off_stream::operator >>(Mesh)`: off_stream.h:98-126; `leftFirst` as in `Off.read`. -/
def readSays (z : Suffixes) (rnd : ℚ → ℚ) (leftFirst : Bool) (t : Text) : Told Mesh :=
  (Told.named (fun _ => none) (parseLines (readlines t))).bind fun lines =>
  match lines with
  | [] => .thrown .outOfRange (some onlyComments)
  | l0 :: ls =>
    if l0 ≠ ['O', 'F', 'F'] then .thrown .failure (some (notOff ++ z.stream))
    else match ls with
      | [] => .thrown .outOfRange (some onlyHeader)
      | l1 :: _ =>
        (readHeaderSays lines l1).bind fun s =>
        let points := Told.named (fun _ => none) (readPoints rnd lines s.1)
        let faces := readFacesSays lines ((2 + s.1) % szMod) s.2
        if leftFirst then points.bind fun ps => faces.bind fun fs => .ok (Mesh.makeAnon ps fs)
        else faces.bind fun fs => points.bind fun ps => .ok (Mesh.makeAnon ps fs)

end Off

/-- `Obj_stream::operator >>`: obj_stream.h:119-133. After the first check the only `ios_base::failure` is that of `str2pt`, io_algorithms.cpp:42, and the only `logic_error` that of a face,
face.cpp:27. -/
def Obj.readSays (z : Suffixes) (rnd : ℚ → ℚ) (t : Text) : Told (List Mesh) :=
  if Obj.parse t = [] then .thrown .outOfRange (some onlyComments)
  else .named (fun e => match e with
    | .failure => some (noPoints ++ z.stream)
    | .logicError => some fewVertices
    | _ => none) (Obj.read rnd t)

/-- `OFFHandler::read`: io_off.cpp:20-51. -/
def offReadSays (z : Suffixes) (rnd : ℚ → ℚ) (lf : Bool) (modes : Modes) (p : Path) (s : Text) (fs : Fs) : Told Mesh :=
  if canRead modes then
    match fs p with
    | some (.file t) => (Off.readSays z rnd lf t).bind fun m => .ok (m.setName (stem p))
    | _ => .thrown .filesystemError (some (missingText s ++ z.noent))
  else .thrown .filesystemError (some (modeText "read".toList ++ z.io))

/-- `OFFHandler::write`: io_off.cpp:53-68. -/
def offWriteSays (z : Suffixes) (modes : Modes) : Told Unit :=
  if canSave modes then .ok () else .thrown .filesystemError (some (modeText "write".toList ++ z.io))

/-- `WaveObjHandler::read`: io_obj.cpp:39-64. -/
def objReadSays (z : Suffixes) (rnd : ℚ → ℚ) (modes : Modes) (p : Path) (s : Text) (fs : Fs) : Told (List Mesh) :=
  if canRead modes then
    match fs p with
    | some (.file t) => Obj.readSays z rnd t
    | _ => .thrown .filesystemError (some (missingText s ++ z.noent))
  else .thrown .filesystemError (some (modeText "read".toList ++ z.io))

/-- `T3DSHandler::T3DSHandler`: io_3ds.cpp:12-43. -/
def t3dsOpenSays {L : Type} (z : Suffixes) (load : Text → Option (File3ds L)) (modes : Modes) (p : Path) (s : Text) (fs : Fs) : Told (Option (File3ds L)) :=
  if canRead modes && canSave modes then .thrown .filesystemError (some ("Simultaneous reading and writing access is forbidden".toList ++ z.noent))
  else if !canRead modes && !canSave modes then .thrown .filesystemError (some ("You have to specify access type".toList ++ z.noent))
  else if canRead modes then
    match fs p with
    | some (.file t) => .ok (load t)
    | _ => .thrown .filesystemError (some (missingQuoted s ++ z.noent))
  else .ok (some ⟨[], .nil⟩)

/-- `SceneTreeHandler::SceneTreeHandler`: io_scene_tree.cpp:11-18. -/
def treeOpenSays (xml : Text → Option (List Elem)) (p : Path) (fs : Fs) : Told (List Elem) :=
  match fs p with
  | some (.file t) =>
    match xml t with
    | some d => .ok d
    | none => .thrown .runtimeError (some "Could not read Scene Tree description!".toList)
  | _ => .thrown .runtimeError (some "Could not read Scene Tree description!".toList)

/-- `GDALOpen` and what follows it: io_vector.cpp:25-43, io_raster.cpp:23-41. -/
def gdalOpenSays {A : Type} (z : Suffixes) (decode : Text → Option A) (p : Path) (s : Text) (w : World) : Told A :=
  match w.fs p with
  | some (.file t) =>
    if w.registered then
      match decode t with
      | some a => .ok a
      | none => .thrown .runtimeError (some (cannotOpen s))
    else .thrown .runtimeError (some (cannotOpen s))
  | _ => .thrown .filesystemError (some (missingQuoted s ++ z.noent))

section
variable {K : Type} [Field K] [LinearOrder K]

/-- `VectorHandler::read`: io_vector.cpp:18-51; the texts of the constructor of a footprint are not told apart. -/
def vectorReadSays (z : Suffixes) (G : Gdal K) (modes : Modes) (p : Path) (s : Text) (w : World) : Told (FootPrint K) :=
  if canRead modes then (gdalOpenSays z G.readShp p s w).bind fun l => .named (fun _ => none) (FootPrint.ofOgr G.geog (stem p) l)
  else .thrown .filesystemError (some (modeText "read".toList ++ z.io))

/-- `RasterHandler::read`: io_raster.cpp:17-49, with the texts of raster_projection.cpp:59, 61. -/
def rasterReadSays (z : Suffixes) (G : Gdal K) (modes : Modes) (p : Path) (s : Text) (w : World) : Told (Raster K) :=
  if canRead modes then (gdalOpenSays z G.readTiff p s w).bind fun d => .named (fun e => match e with
    | .logicError => some "this case is not treated yet!".toList
    | _ => some "GDAL could not retrieve any registered Geometric Transform".toList) (Raster.ofGdal G.geog (stem p) d)
  else .thrown .filesystemError (some (modeText "read".toList ++ z.io))

/-- `VectorHandler::write`: io_vector.cpp:52-80: the outcome. -/
def vectorWriteSays (z : Suffixes) (modes : Modes) (p : Path) (s : Text) (fs : Fs) : Told Unit :=
  if canSave modes then
    if fs.canWrite p then .ok () else .thrown .filesystemError (some (cannotMake s ++ z.io))
  else .thrown .filesystemError (some (modeText "write".toList ++ z.io))

/-- `std::stringstream s(start); s << more`: the text replaces the beginning of the first one. -/
def overwritten (start more : Text) : Text := more ++ start.drop more.length

/-- face_projection.cpp:304-305. -/
def boundsText (a h b w : Nat) : Text :=
  overwritten "Face out of bounds: ".toList (natText a ++ " > ".toList ++ natText h ++ " or ".toList ++ natText b ++ " > ".toList ++ natText w)

/-- `FacePrint::rasterize`: face_projection.cpp:293-330. Other exceptions than that of line 306 come from below. -/
def FacePrint.rasterizeSays [FloorRing K] (C : Cgal K) (lr : Bool) (f : FacePrint K) (left top : K) (height width : Nat) (p : K) (s : List K × List Int) : Told (List K × List Int) :=
  if f.isDegenerate C then .ok s
  else
    match f.bbox with
    | none => .ub
    | some b =>
      (Told.named (fun _ => none) (floorCells (top - b.ymax) p)).bind fun i0 =>
      (Told.named (fun _ => none) (floorCells (b.xmin - left) p)).bind fun j0 =>
      (Told.named (fun _ => none) (ceilCells (b.xmax - b.xmin) p)).bind fun w =>
      (Told.named (fun _ => none) (ceilCells (b.ymax - b.ymin) p)).bind fun h =>
      if i0 + h > height ∧ j0 + w > width then .thrown .runtimeError (some (boundsText (i0 + h) height (j0 + w) width))
      else .named (fun _ => none) (rasterLoop C lr f b p i0 j0 w width (List.range (w * h)) s)

end

/-- `SceneHandler::scene_format`, `check_extension` and the constructor: io_scene.cpp:22-40, 152-179. -/
def sceneHandlerSays (p : Path) (f : Text) : Told SceneFormat :=
  (Told.named (fun _ => some "Input format not supported!".toList) (sceneFormat f)).bind fun f =>
  .named (fun _ => some "The file path does not have the right extension".toList) (sceneHandler p f)

/-- `filepath / name`, as it is spelled. -/
def slashed (s n : Text) : Text := if s = [] ∨ s.getLast? = some '/' then s ++ n else s ++ '/' :: n

section
variable {N : Type}

/-- `SceneHandler::read`, OFF: io_scene.cpp:49-83. -/
def offSceneReadSays (z : Suffixes) (ops : NodeOps N) (rnd : ℚ → ℚ) (lf : Bool) (modes : Modes) (p : Path) (s : Text) (names : List Text) (fs : Fs) : Told (Scene N) :=
  if fs p ≠ some .dir then .thrown .runtimeError (some "Path is not a directory".toList)
  else
    (Told.mapM (fun n => offReadSays z rnd lf modes (p ++ [n]) (slashed s n) fs) (names.filter (isBuildingFile p fs))).bind fun bs =>
    (offReadSays z rnd lf modes (joinPath p "terrain.off".toList) (slashed s "terrain.off".toList) fs).bind fun t =>
    .ok (Scene.makeDefault ops bs t)

/-- `SceneHandler::read`, OBJ: io_scene.cpp:84-86, io_obj.cpp:110-117. -/
def objSceneReadSays (z : Suffixes) (ops : NodeOps N) (rnd : ℚ → ℚ) (modes : Modes) (p : Path) (s : Text) (fs : Fs) : Told (Scene N) :=
  (objReadSays z rnd modes p s fs).bind fun ms => .ok (Scene.makeDefault ops (excludeMesh "terrain".toList ms).1 (excludeMesh "terrain".toList ms).2)

end
end City
