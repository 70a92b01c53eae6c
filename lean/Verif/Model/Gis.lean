import Verif.Model.Raster
import Verif.Model.Handlers
import Verif.Model.Measure
/-
Model of the handlers of GIS files, /repo/src/lib/io/io_vector.cpp and /repo/src/lib/io/io_raster.cpp, of `FootPrint` from and to a layer,
/repo/src/lib/projection/scene_projection.cpp:29-34 and 143-154, and of the measures of a footprint, /repo/src/lib/projection/brick_projection.cpp:213-276.
GDAL itself is a parameter. A shapefile is one file here; its companions (.shx, .dbf, .prj) and the rounding of its number fields are not
modelled.
-/
namespace City

/-- A vector layer: its name, the EPSG code of its spatial reference, whether it has the error fields, and the features. -/
structure Layer (K : Type) where
  name : Text
  epsg : Nat
  labels : Bool
  features : List (Feature K)
  deriving DecidableEq

/-- GDAL: the file formats, `GetEPSGGeogCS` (the EPSG code of the geographic system of a projection, or -1), `operator <<(ostream, double)` and
the length of a segment as a double. -/
structure Gdal (K : Type) where
  shp : Layer K → Text
  readShp : Text → Option (Layer K)
  tiff : Raster.Dataset K → Text
  readTiff : Text → Option (Raster.Dataset K)
  geog : Option Nat → Int
  num : K → Text
  len : V2 K × V2 K → K

section
variable {K : Type} [Field K] [LinearOrder K]

/-- `BrickPrint::areas`: brick_projection.cpp:213-226. -/
def Brick.areas (C : Cgal K) (b : Brick K) : List K := b.faces.map (FacePrint.area C)

/-- `BrickPrint::edge_lengths`: brick_projection.cpp:238-265: the edges of the outer boundaries of the pieces of the union. -/
def Brick.edgeLengths (C : Cgal K) (len : V2 K × V2 K → K) (b : Brick K) : List K :=
  (C.pieces (Brick.joinAll C b.faces)).flatMap fun q => (polyEdges q.outer).map len

/-- `BrickPrint::circumference`: brick_projection.cpp:266-276. -/
def Brick.circumference (C : Cgal K) (len : V2 K × V2 K → K) (b : Brick K) : K := (Brick.edgeLengths C len b).foldl (· + ·) 0

/-- `FootPrint::to_ogr`: scene_projection.cpp:143-154, when GDAL makes the layer and takes the features. -/
def FootPrint.toOgr (C : Cgal K) (labels : Bool) (f : FootPrint K) : Layer K := ⟨f.name, f.epsg, labels, Brick.toOgr C f.ref f.brick⟩

/-- `FootPrint::FootPrint(std::string const&, OGRLayer*)`: scene_projection.cpp:29-34: the reference point is the default one; the
conversion to `unsigned short` is modulo 2^16. -/
def FootPrint.ofOgr (geog : Option Nat → Int) (name : Text) (l : Layer K) : Out (FootPrint K) := do
  let b ← Brick.ofOgr l.features Brick.empty
  .ok ⟨name, ⟨0, 0, 0⟩, if geog (some l.epsg) > 0 then (geog (some l.epsg)).toNat % 2 ^ 16 else 2154, b⟩

/-- An operation on files: the outcome and the files afterwards. -/
abbrev Writer := Fs → Out Unit × Fs

/-- `VectorHandler::write`: io_vector.cpp:52-80. A file that cannot be made is reported: by `Create`, or by `CreateLayer` with a runtime_error, depending on
the version of GDAL. -/
def vectorPut (C : Cgal K) (G : Gdal K) (modes : Modes) (p : Path) (f : FootPrint K) (labels : Bool) : Writer := fun fs =>
  if canSave modes then
    if fs.canWrite p then (.ok (), fs.set p (.file (G.shp (f.toOgr C labels)))) else (.thrown .filesystemError, fs)
  else (.thrown .filesystemError, fs)

/-- `RasterHandler::write`: io_raster.cpp:51-86. The result of `Create` is not checked: when the file cannot be made (GDAL refuses images without
pixels, too) a null pointer is dereferenced. -/
def rasterPut (G : Gdal K) (modes : Modes) (p : Path) (r : Raster K) : Writer := fun fs =>
  if canSave modes then
    if fs.canWrite p ∧ r.width ≠ 0 ∧ r.height ≠ 0 then (.ok (), fs.set p (.file (G.tiff r.toGdal))) else (.ub, fs)
  else (.thrown .filesystemError, fs)

/-- The files and the state of the process: whether `GDALAllRegister` has been called. -/
structure World where
  fs : Fs
  registered : Bool

/-- `VectorHandler::write`: io_vector.cpp:52-80: in the mode `write`, the drivers are registered first. -/
def vectorWrite (C : Cgal K) (G : Gdal K) (modes : Modes) (p : Path) (f : FootPrint K) (labels : Bool) (w : World) : Out Unit × World :=
  ((vectorPut C G modes p f labels w.fs).1, ⟨(vectorPut C G modes p f labels w.fs).2, w.registered || canSave modes⟩)

/-- `RasterHandler::write`: io_raster.cpp:51-86. -/
def rasterWrite (G : Gdal K) (modes : Modes) (p : Path) (r : Raster K) (w : World) : Out Unit × World :=
  ((rasterPut G modes p r w.fs).1, ⟨(rasterPut G modes p r w.fs).2, w.registered || canSave modes⟩)

/-- `GDALOpen` and `GDALOpenEx`: without registered drivers nothing can be opened. -/
def gdalOpen {A : Type} (decode : Text → Option A) (p : Path) (w : World) : Out A :=
  match w.fs p with
  | some (.file t) =>
    if w.registered then
      match decode t with
      | some a => .ok a
      | none => .thrown .runtimeError
    else .thrown .runtimeError
  | _ => .thrown .filesystemError

/-- `VectorHandler::read`: io_vector.cpp:18-51. -/
def vectorRead (G : Gdal K) (modes : Modes) (p : Path) (w : World) : Out (FootPrint K) :=
  if canRead modes then do
    let l ← gdalOpen G.readShp p w
    FootPrint.ofOgr G.geog (stem p) l
  else .thrown .filesystemError

/-- `RasterHandler::read`: io_raster.cpp:17-49. -/
def rasterRead (G : Gdal K) (modes : Modes) (p : Path) (w : World) : Out (Raster K) :=
  if canRead modes then do
    let d ← gdalOpen G.readTiff p w
    Raster.ofGdal G.geog (stem p) d
  else .thrown .filesystemError

end
end City
