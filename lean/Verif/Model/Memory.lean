import Verif.Model.Gis
import Verif.Model.T3ds
import Verif.Model.Mesh3dsDbl
/-
Model of the memory that the code takes from the libraries and gives back: the objects made by `new`, `calloc`, lib3ds and GDAL in
/repo/src/lib/projection/{utilities,face_projection,brick_projection,scene_projection,raster_projection}.cpp, /repo/src/lib/shadow/{face,mesh}.cpp and
/repo/src/lib/io/{io_vector,io_raster,io_3ds}.cpp.

Simplifications: an object is one block, whatever it consists of (a `Lib3dsMesh` with its two arrays, an `OGRPolygon` with its copies of rings); objects
that live on the stack or in a container, which C++ releases by itself, are not seen; an allocation never fails. Of GDAL it is assumed, as its
documentation says, that `addPoint`, `addRing`, `SetGeometry` and `CreateField` copy their argument and leave it to the caller, that `GDALClose` releases
the dataset and that `DestroyFeature` releases the feature; of lib3ds, that `lib3ds_file_free` releases the file with the meshes in its list and
dereferences its argument, and that `lib3ds_file_load` gives a null pointer, and keeps nothing, for a file it cannot read.
-/
namespace City.Mem

/-- What a block of memory holds. `scratch3ds` is the single `Lib3dsFace` of face.cpp:213, `buffer` the array of raster_projection.cpp:66, `wkt` the text
of raster_projection.cpp:257. -/
inductive Kind
  | file3ds | mesh3ds | face3ds | scratch3ds | ogrPoint | ogrRing | ogrPolygon | ogrField | ogrFeature | dataset | buffer | wkt
  deriving DecidableEq, Repr

/-- The memory: the next address, the blocks in use, and for a `Lib3dsFile` the list of meshes that hangs from it. Addresses are never used twice, so
that a dangling pointer is seen as such. -/
structure Heap where
  next : Nat
  live : List (Nat × Kind)
  meshes : Nat → List Nat

/-- A computation on the memory; what it has done stays done when it throws. -/
def Hm (α : Type) : Type := Heap → Out α × Heap

/-- Sequencing. -/
def Hm.bind {α β : Type} (x : Hm α) (f : α → Hm β) : Hm β := fun h =>
  match x h with
  | (.ok a, h') => f a h'
  | (.thrown e, h') => (.thrown e, h')
  | (.ub, h') => (.ub, h')

instance : Monad Hm where
  pure := fun a h => (.ok a, h)
  bind := Hm.bind

/-- A `throw`. -/
def raise {α : Type} (e : Exc) : Hm α := fun h => (.thrown e, h)

/-- An operation without meaning in C++. -/
def undef {α : Type} : Hm α := fun h => (.ub, h)

/-- A computation that does not touch the memory. -/
def lift {α : Type} (x : Out α) : Hm α := fun h => (x, h)

/-- `new`, `calloc` and the functions of the libraries that make an object. -/
def alloc (k : Kind) : Hm Nat := fun h => (.ok h.next, ⟨h.next + 1, (h.next, k) :: h.live, h.meshes⟩)

/-- `delete`, `free` and the functions of the libraries that release an object: undefined for a block that is not in use. -/
def release (a : Nat) : Hm Unit := fun h =>
  if a ∈ h.live.map (·.1) then (.ok (), ⟨h.next, h.live.filter (fun b => b.1 != a), h.meshes⟩) else (.ub, h)

/-- A use of an object through a pointer: undefined for a block that is not in use. -/
def touch (a : Nat) : Hm Unit := fun h => if a ∈ h.live.map (·.1) then (.ok (), h) else (.ub, h)

section
variable {K : Type} [Field K] [LinearOrder K]

/-- The loop of `to_ogr(Polygon)`: utilities.cpp:82-89: `to_ogr(Point_2)` (utilities.cpp:75-78) makes a point, `addPoint` copies it. -/
def addPoints (r : Nat) : Poly K → Hm Unit
  | [] => pure ()
  | _ :: t => do
    let q ← alloc .ogrPoint
    touch r
    touch q
    addPoints r t

/-- `to_ogr(Polygon)`: utilities.cpp:79-92. -/
def ringToOgr (p : Poly K) : Hm Nat := do
  let r ← alloc .ogrRing
  addPoints r p
  pure r

/-- `addRing(to_ogr(...))` for one ring after the other: utilities.cpp:96-104. -/
def addRings (g : Nat) : List (Poly K) → Hm Unit
  | [] => pure ()
  | p :: t => do
    let r ← ringToOgr p
    touch g
    touch r
    addRings g t

/-- `to_ogr(Polygon_with_holes)`: utilities.cpp:93-106. -/
def pwhToOgr (p : Pwh K) : Hm Nat := do
  let g ← alloc .ogrPolygon
  addRings g (p.outer :: p.holes)
  pure g

/-- `FacePrint::to_ogr`: face_projection.cpp:270-291. -/
def facetToOgr (f : FacePrint K) : Hm Nat := do
  let x ← alloc .ogrFeature
  let g ← pwhToOgr f.border
  touch x
  touch g
  pure x

/-- The fields of a layer: brick_projection.cpp:381-400: `CreateField` copies each of them. -/
def makeFields : Nat → Hm Unit
  | 0 => pure ()
  | n + 1 => do
    let d ← alloc .ogrField
    touch d
    makeFields n

/-- The loop of `BrickPrint::to_ogr`: brick_projection.cpp:402-408: `takes i` says whether GDAL takes feature `i`. -/
def insertFacets (takes : Nat → Bool) : Nat → List (FacePrint K) → Hm Unit
  | _, [] => pure ()
  | i, f :: fs => do
    let x ← facetToOgr f
    if takes i then do
      release x
      insertFacets takes (i + 1) fs
    else raise .runtimeError

/-- `BrickPrint::to_ogr`: brick_projection.cpp:379-409. -/
def brickToOgr (takes : Nat → Bool) (labels : Bool) (fs : List (FacePrint K)) : Hm Unit := do
  makeFields (if labels then 8 else 5)
  insertFacets takes 0 fs

/-- What GDAL answers while a file is written: is there a driver, is the dataset made, is the layer made, which features (or whether the band) it takes. -/
structure Answers where
  driver : Bool
  created : Bool
  layer : Bool
  takes : Nat → Bool

/-- `VectorHandler::write` and `FootPrint::to_ogr`: io_vector.cpp:52-80, scene_projection.cpp:149-159: the layer belongs to the dataset. -/
def vectorWrite (modes : Modes) (g : Answers) (f : FootPrint K) (labels : Bool) : Hm Unit :=
  if canSave modes then
    if !g.driver then raise .runtimeError
    else if !g.created then raise .filesystemError
    else do
      let d ← alloc .dataset
      if g.layer then do
        brickToOgr g.takes labels f.brick.faces
        release d
      else raise .runtimeError
  else raise .filesystemError

/-- The loop of `get_ogr_ring`: utilities.cpp:117-127: a point is made for every vertex, filled and read. -/
def readPoints : Ring2 K → Hm Unit
  | [] => pure ()
  | _ :: t => do
    let q ← alloc .ogrPoint
    touch q
    readPoints t

/-- `get_ogr_ring`: utilities.cpp:112-129. -/
def ringOfOgr (r : Ring2 K) : Hm (Poly K) :=
  if r = [] then raise .lengthError
  else do
    readPoints r.dropLast
    pure r.dropLast

/-- The interior rings: utilities.cpp:132-142. -/
def ringsOfOgr : List (Ring2 K) → Hm (List (Poly K))
  | [] => pure []
  | r :: t => do
    let p ← ringOfOgr r
    let ps ← ringsOfOgr t
    pure (p :: ps)

/-- `get_ogr_polygon` and `FacePrint::FacePrint(OGRFeature*)`: utilities.cpp:130-145, face_projection.cpp:39-59, as `FacePrint.ofOgr`. -/
def facetOfOgr (x : Feature K) : Hm (FacePrint K) :=
  match x.rings with
  | [] => undef
  | r :: rs => do
    let hs ← ringsOfOgr rs
    let o ← ringOfOgr r
    pure ⟨x.id, ⟨o, hs⟩, x.plane⟩

/-- `BrickPrint::BrickPrint(OGRLayer*)`: brick_projection.cpp:25-37: `GetNextFeature` makes a feature, which is destroyed after use. -/
def brickOfOgr : List (Feature K) → Brick K → Hm (Brick K)
  | [], b => pure b
  | x :: xs, b => do
    let a ← alloc .ogrFeature
    let f ← facetOfOgr x
    release a
    brickOfOgr xs ⟨Box2.union b.bbox f.bbox, b.faces ++ [f]⟩

/-- `VectorHandler::read`: io_vector.cpp:18-51, and `FootPrint::FootPrint(std::string const&, OGRLayer*)`: scene_projection.cpp:29-34. -/
def vectorRead (G : Gdal K) (modes : Modes) (p : Path) (w : World) : Hm (FootPrint K) :=
  if canRead modes then do
    let l ← lift (gdalOpen G.readShp p w)
    let d ← alloc .dataset
    let b ← brickOfOgr l.features Brick.empty
    release d
    pure ⟨stem p, ⟨0, 0, 0⟩, if G.geog (some l.epsg) > 0 then (G.geog (some l.epsg)).toNat % 2 ^ 16 else 2154, b⟩
  else raise .filesystemError

/-- `RasterHandler::read`: io_raster.cpp:17-49, and `RasterPrint::RasterPrint(std::string const&, GDALDataset*)`: raster_projection.cpp:40-73: the buffer is
made after the geotransform has been accepted; `reads` says whether GDAL reads the band. -/
def rasterRead (G : Gdal K) (reads : Bool) (modes : Modes) (p : Path) (w : World) : Hm (Raster K) :=
  if canRead modes then do
    let l ← lift (gdalOpen G.readTiff p w)
    let d ← alloc .dataset
    let r ← lift (Raster.ofGdal G.geog (stem p) l)
    let b ← alloc .buffer
    touch b
    if reads then do
      release d
      pure r
    else raise .runtimeError
  else raise .filesystemError

/-- `RasterHandler::write`: io_raster.cpp:51-86, and `RasterPrint::to_gdal`: raster_projection.cpp:248-289: a dataset that was not made is dereferenced; the
text of the projection is released. -/
def rasterWrite (modes : Modes) (g : Answers) : Hm Unit :=
  if canSave modes then
    if !g.driver then raise .runtimeError
    else if !g.created then undef
    else do
      let d ← alloc .dataset
      let t ← alloc .wkt
      touch d
      release t
      if g.takes 0 then release d else raise .runtimeError
  else raise .filesystemError

end

/-- `Face::to_3ds`: face.cpp:204-236: the array of triangles is made before convexity is looked at; it is returned to the caller. -/
noncomputable def faceTo3ds (o : SumOrder) (f : Face) (co : List (V3 Dbl)) : Hm (Nat × List Face3dsF) :=
  if co.length < f.points.length then raise .outOfRange
  else do
    let b ← alloc .face3ds
    let convex ← lift (Face.isConvexD o f co)
    if convex then do
      let c ← alloc .scratch3ds
      let ts ← lift (match f.points with
        | [] => .ok []
        | p0 :: t => Out.mapM (Face.fanTriangleD o co p0) (t.zip t.tail))
      release c
      pure (b, ts)
    else raise .logicError

/-- The transform of mesh.cpp:317-325: `*(face.to_3ds(points))` reads the first triangle; the pointer is dropped. -/
noncomputable def fillFaces (o : SumOrder) (co : List (V3 Dbl)) (slots : Int) : Nat → List Face → Hm Unit
  | _, [] => pure ()
  | k, f :: fs => do
    let r ← faceTo3ds o f co
    touch r.1
    let _ ← lift (Out.idx r.2 0)
    if (k : Int) < slots then fillFaces o co slots (k + 1) fs else undef

/-- `Mesh::to_3ds`: mesh.cpp:281-330. -/
noncomputable def meshTo3ds (o : SumOrder) (m : DMesh) : Hm Nat :=
  if 63 ≤ (cName m.name).length then undef
  else if 65536 ≤ m.points.length then undef
  else do
    let a ← alloc .mesh3ds
    fillFaces o m.points (faceSlots m.faces) 0 m.faces
    pure a

/-- `file->meshes = a list`: the assignment is through the pointer. -/
def setMeshes (f : Nat) (l : List Nat) : Hm Unit := fun h =>
  if f ∈ h.live.map (·.1) then (.ok (), ⟨h.next, h.live, Function.update h.meshes f l⟩) else (.ub, h)

/-- The loop of `write_meshes`: io_3ds.cpp:258-264: `current->next = mesh.to_3ds()`. -/
noncomputable def linkMeshes (o : SumOrder) (f : Nat) : List Nat → List DMesh → Hm Unit
  | _, [] => pure ()
  | l, m :: ms => do
    let a ← meshTo3ds o m
    setMeshes f (l ++ [a])
    linkMeshes o f (l ++ [a]) ms

/-- A `T3DSHandler`: its modes and the pointer `file`: io_3ds.h:44. -/
structure Handler where
  modes : Modes
  file : Option Nat

/-- `T3DSHandler::write_meshes`: io_3ds.cpp:250-274: `meshes[0]` of an empty vector is undefined; the list that hung from the file before is overwritten;
saving neither makes nor releases anything. -/
noncomputable def writeMeshes (o : SumOrder) (x : Handler) (ms : List DMesh) : Hm Unit :=
  if canSave x.modes then
    match ms, x.file with
    | [], _ => undef
    | _ :: _, none => undef
    | m :: t, some f => do
      let a ← meshTo3ds o m
      setMeshes f [a]
      linkMeshes o f [a] t
  else raise .filesystemError

/-- `T3DSHandler::get_meshes`: io_3ds.cpp:90-111: the file and its meshes are read. -/
def getMeshes (x : Handler) : Hm Unit :=
  if canRead x.modes then
    match x.file with
    | none => undef
    | some f => touch f
  else raise .filesystemError

/-- Releases one block after the other. -/
def releaseAll : List Nat → Hm Unit
  | [] => pure ()
  | a :: t => do
    release a
    releaseAll t

/-- `T3DSHandler::~T3DSHandler`: io_3ds.cpp:46-49: `lib3ds_file_free(file)`: the meshes, then the file; a null pointer is dereferenced. -/
def destroy (x : Handler) : Hm Unit :=
  match x.file with
  | none => undef
  | some f => do
    touch f
    fun h => releaseAll (h.meshes f) h
    release f

/-- The meshes of a file that lib3ds has loaded. -/
def allocMeshes : Nat → Hm (List Nat)
  | 0 => pure []
  | n + 1 => do
    let a ← alloc .mesh3ds
    let l ← allocMeshes n
    pure (a :: l)

/-- `T3DSHandler::T3DSHandler`: io_3ds.cpp:12-43: `lib3ds_file_load` or `lib3ds_file_new`; a constructor that throws has made nothing. -/
def construct {L : Type} (load : Text → Option (File3ds L)) (modes : Modes) (p : Path) (fs : Fs) : Hm Handler := do
  let r ← lift (T3ds.construct load modes p fs)
  match r with
  | none => pure ⟨modes, none⟩
  | some F => do
    let f ← alloc .file3ds
    let l ← allocMeshes F.meshes.length
    setMeshes f l
    pure ⟨modes, some f⟩

/-- What a program does with handlers, which are its variables: construct one, construct a copy, assign, read, write, destroy. -/
inductive Step (L : Type)
  | make (v : Nat) (load : Text → Option (File3ds L)) (modes : Modes) (p : Path) (fs : Fs)
  | copy (v w : Nat)
  | assign (v w : Nat)
  | get (v : Nat)
  | write (v : Nat) (ms : List DMesh)
  | destroy (v : Nat)

/-- The memory and the handlers that exist. -/
structure State where
  heap : Heap
  vars : Nat → Option Handler

/-- A program that has not done anything yet. -/
def State.start : State := ⟨⟨0, [], fun _ => []⟩, fun _ => none⟩

/-- One step: io_3ds.cpp, with the copy constructor and the assignment that C++ adds to the class (io_3ds.h:20-46 declares neither), which copy the
pointer. A step on a variable that does not exist, or the construction of one that does, is not a program and is passed over. -/
noncomputable def State.step {L : Type} (o : SumOrder) (s : State) : Step L → Out Unit × State
  | .make v load modes p fs =>
    match s.vars v with
    | some _ => (.ok (), s)
    | none =>
      match construct load modes p fs s.heap with
      | (.ok x, h) => (.ok (), ⟨h, Function.update s.vars v (some x)⟩)
      | (.thrown e, h) => (.thrown e, ⟨h, s.vars⟩)
      | (.ub, h) => (.ub, ⟨h, s.vars⟩)
  | .copy v w =>
    match s.vars v, s.vars w with
    | none, some x => (.ok (), ⟨s.heap, Function.update s.vars v (some x)⟩)
    | _, _ => (.ok (), s)
  | .assign v w =>
    match s.vars v, s.vars w with
    | some _, some x => (.ok (), ⟨s.heap, Function.update s.vars v (some x)⟩)
    | _, _ => (.ok (), s)
  | .get v =>
    match s.vars v with
    | none => (.ok (), s)
    | some x => ((getMeshes x s.heap).1, ⟨(getMeshes x s.heap).2, s.vars⟩)
  | .write v ms =>
    match s.vars v with
    | none => (.ok (), s)
    | some x => ((writeMeshes o x ms s.heap).1, ⟨(writeMeshes o x ms s.heap).2, s.vars⟩)
  | .destroy v =>
    match s.vars v with
    | none => (.ok (), s)
    | some x => ((City.Mem.destroy x s.heap).1, ⟨(City.Mem.destroy x s.heap).2, Function.update s.vars v none⟩)

/-- A program: exceptions are caught by the caller; undefined behaviour is the end. -/
noncomputable def State.run {L : Type} (o : SumOrder) : List (Step L) → State → Out State
  | [], s => .ok s
  | x :: xs, s =>
    match s.step o x with
    | (.ub, _) => .ub
    | (_, s') => State.run o xs s'

end City.Mem
