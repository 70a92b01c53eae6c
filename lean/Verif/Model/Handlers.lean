import Verif.Model.Fs
/-
Model of /repo/src/lib/io/{io_off,io_obj,io_vector,io_raster}.cpp: the operations of the handlers of single files. GDAL is not
modelled: the decoding and encoding of vector and raster files are parameters.
-/
namespace City

/-- `OFFHandler::read`: io_off.cpp:22-51. -/
def offRead (rnd : ℚ → ℚ) (lf : Bool) (modes : Modes) (p : Path) (fs : Fs) : Out Mesh :=
  if canRead modes then
    match fs p with
    | some (.file t) => do
      let m ← Off.read rnd lf t
      .ok (m.setName (stem p))
    | _ => .thrown .filesystemError
  else .thrown .filesystemError

/-- `OFFHandler::write`: io_off.cpp:53-68. -/
def offWrite (modes : Modes) (p : Path) (m : Mesh) (fs : Fs) : Out Unit × Fs :=
  if canSave modes then (.ok (), fs.put p (Off.write m)) else (.thrown .filesystemError, fs)

/-- `WaveObjHandler::read`: io_obj.cpp:39-64. -/
def objRead (rnd : ℚ → ℚ) (modes : Modes) (p : Path) (fs : Fs) : Out (List Mesh) :=
  if canRead modes then
    match fs p with
    | some (.file t) => Obj.read rnd t
    | _ => .thrown .filesystemError
  else .thrown .filesystemError

/-- `WaveObjHandler::write`: io_obj.cpp:66-81. -/
def objWrite (modes : Modes) (p : Path) (ms : List Mesh) (fs : Fs) : Out Unit × Fs :=
  if canSave modes then
    match Obj.write ms with
    | .ok t => (.ok (), fs.put p t)
    | .thrown e => (.thrown e, fs)
    | .ub => (.ub, fs)
  else (.thrown .filesystemError, fs)

/-- `std::stable_partition`: the elements satisfying the predicate first, in order, then the others, in order; with the
position of the first of the others. -/
def stablePartition (p : Mesh → Bool) (ms : List Mesh) : List Mesh × Nat :=
  (ms.filter p ++ ms.filter (fun m => !p m), (ms.filter p).length)

/-- `WaveObjHandler::exclude_mesh`: io_obj.cpp:83-104: the remaining meshes, and the sum of the excluded ones. -/
def excludeMesh (excluded : Text) (ms : List Mesh) : List Mesh × Mesh :=
  let r := stablePartition (fun m => m.name != excluded) ms
  (r.1.take r.2, (Mesh.sumFrom Mesh.empty (r.1.drop r.2)).setName excluded)

/-- `WaveObjHandler::get_scene`, the meshes given to the scene: io_obj.cpp:110-117. -/
def objSceneMeshes (rnd : ℚ → ℚ) (modes : Modes) (p : Path) (fs : Fs) : Out (List Mesh × Mesh) := do
  let ms ← objRead rnd modes p fs
  .ok (excludeMesh "terrain".toList ms)

/-- `VectorHandler::read` and `RasterHandler::read`: io_vector.cpp:19-51, io_raster.cpp:17-49; `dec` stands for GDAL
and the constructor of the result. -/
def gdalRead {α : Type} (dec : Text → Text → Out α) (modes : Modes) (p : Path) (fs : Fs) : Out α :=
  if canRead modes then
    match fs p with
    | some (.file t) => dec (stem p) t
    | _ => .thrown .filesystemError
  else .thrown .filesystemError

/-- `VectorHandler::write` and `RasterHandler::write`: io_vector.cpp:52-79, io_raster.cpp:51-83; `enc` stands for GDAL. -/
def gdalWrite {α : Type} (enc : α → Path → Fs → Out Unit × Fs) (modes : Modes) (p : Path) (a : α) (fs : Fs) : Out Unit × Fs :=
  if canSave modes then enc a p fs else (.thrown .filesystemError, fs)

end City
