import Verif.Model.BrickPrint
import Verif.Model.Text
import Mathlib.Algebra.Order.Floor.Ring
/-
Model of /repo/src/lib/projection/scene_projection.cpp (footprints), of the raster part of
/repo/src/lib/projection/face_projection.cpp and of /repo/src/lib/projection/raster_projection.cpp.
Doubles are exact elements of `K`. Products of sizes are not reduced modulo 2^64.
-/
namespace City

/-- `projection::FootPrint`: scene_projection.h:52-55. -/
structure FootPrint (K : Type) where
  name : Text
  ref : V3 K
  epsg : Nat
  brick : Brick K
  deriving DecidableEq

/-- `projection::RasterPrint`: raster_projection.h:62-70. `hits` is a vector of `short`. -/
structure Raster (K : Type) where
  name : Text
  ref : V3 K
  epsg : Nat
  height : Nat
  width : Nat
  pixel : K
  image : List K
  hits : List Int
  offset : Bool
  deriving DecidableEq

section
variable {K : Type} [Field K] [LinearOrder K]

namespace FootPrint
variable (C : Cgal K)

/-- `FootPrint::FootPrint()`: scene_projection.cpp:12-13, scene_projection.h:52-55. -/
def empty : FootPrint K := ⟨[], ⟨0, 0, 0⟩, 2154, Brick.empty⟩

/-- The accumulation of scene_projection.cpp:19-27: `proj + face_print` converts the face to a brick print
(brick_projection.cpp:433-437, 21-24). -/
def sumPrints : List (FacePrint K) → Brick K → Out (Brick K)
  | [], b => .ok b
  | f :: fs, b => do
    let b' ← b.addBrick C (Brick.ofFace f)
    sumPrints fs b'

/-- `FootPrint::FootPrint(UNode const&)`: scene_projection.cpp:14-28, from the name, reference point, EPSG code and facets of the
node. -/
def ofNode (name : Text) (ref : V3 K) (epsg : Nat) (facets : List (Facet K)) : Out (FootPrint K) := do
  let b ← sumPrints C (orthoprint C facets) Brick.empty
  .ok ⟨name, ref, epsg, b⟩

/-- `operator +=`: scene_projection.cpp:135-147. -/
def add (a o : FootPrint K) : Out (FootPrint K) :=
  if a.brick.isEmpty then .ok o
  else if a.ref ≠ o.ref ∨ a.epsg ≠ o.epsg then .thrown .logicError
  else do
    let b ← a.brick.addBrick C o.brick
    .ok { a with brick := b }

/-- `operator +=` with the object after the call, which is read after an exception too: scene_projection.cpp:135-147. When the sum of the
brick prints itself fails, the object is recorded as unchanged; the code may have begun to change its faces. -/
def addInPlace (a o : FootPrint K) : FootPrint K × Out Unit :=
  if a.brick.isEmpty then (o, .ok ())
  else if a.ref ≠ o.ref ∨ a.epsg ≠ o.epsg then (a, .thrown .logicError)
  else
    match a.brick.addBrick C o.brick with
    | .ok b => ({ a with brick := b }, .ok ())
    | .thrown e => (a, .thrown e)
    | .ub => (a, .ub)

/-- `operator ==`: scene_projection.cpp:170-177. -/
def eq (a b : FootPrint K) : Bool := decide (a.ref = b.ref) && decide (a.epsg = b.epsg) && a.brick.eq b.brick

end FootPrint

/-- `std::unique` on the vertices: util_algorithms.cpp:99-105. -/
def unique : List (V2 K) → List (V2 K)
  | a :: b :: t => if a = b then unique (a :: t) else a :: unique (b :: t)
  | l => l
termination_by l => l.length

/-- `city::centroid`: util_algorithms.cpp:82-115: mean of the rounded vertices of the outer boundary, consecutive equal
ones counted once. `CGAL::centroid` of no point is undefined. -/
def centroid (C : Cgal K) (q : Pwh K) : Out (V2 K) :=
  match unique (q.outer.map fun v => ⟨C.toDouble v.x, C.toDouble v.y⟩) with
  | [] => .ub
  | l => .ok ⟨(l.map V2.x).sum / l.length, (l.map V2.y).sum / l.length⟩

/-- The square of pixel_intersection: face_projection.cpp:142-147. -/
def square (x y p : K) : Pwh K := ⟨[⟨x, y⟩, ⟨x, y - p⟩, ⟨x + p, y - p⟩, ⟨x + p, y⟩], []⟩

namespace FacePrint
variable (C : Cgal K)

/-- The inner product of get_height: face_projection.cpp:166-177: parts are summed in order. -/
def partHeights (f : FacePrint K) (n : K) : List (Pwh K) → K → Out K
  | [], s => .ok s
  | q :: qs, s => do
    let c ← centroid C q
    let z ← planeHeightInexact C f c
    partHeights f n qs (s + z / n)

/-- `get_height(double, double, double, bool &)`: face_projection.cpp:159-180, with `pixel_intersection`: face_projection.cpp:139-157.
`none` is `hit = false`. -/
def pixelHeight (f : FacePrint K) (x y p : K) : Out (Option K) :=
  if (C.inter (square x y p) f.border).isEmpty then .ok none
  else do
    let z ← partHeights C f ((C.inter (square x y p) f.border).length : K) (C.inter (square x y p) f.border) 0
    .ok (some z)

/-- `++` on a `short`: the value modulo 2^16, as gcc and clang define the conversion. -/
def shortSucc (n : Int) : Int := if n = 32767 then -32768 else n + 1

/-- The assignment of face_projection.cpp:318-326. The operands of `/` read and increment the same hit count without sequencing, which the
standard leaves undefined; the model has the two orders: `lr = true` evaluates the left operand first. In `K` a
division by a hit count 0 (after 65535 hits) gives 0, in the code an infinity or NaN. -/
def bump (lr : Bool) (k : Nat) (z : K) (s : List K × List Int) : Out (List K × List Int) := do
  let v ← Out.atOr s.1 k
  let n ← Out.atOr s.2 k
  .ok (s.1.set k ((v * ((if lr then n else shortSucc n : Int) : K) + z) / (shortSucc n : K)), s.2.set k (shortSucc n))

end FacePrint
end

section
variable {K : Type} [Field K] [LinearOrder K] [FloorRing K]

/-- `static_cast<std::size_t>` of an integral double: undefined unless the value fits. -/
def toSize (z : ℤ) : Out Nat := if 0 ≤ z ∧ z < 2 ^ 64 then .ok z.toNat else .ub

/-- `static_cast<std::size_t>(std::floor(a / p))`: a division by zero gives an infinity or NaN. -/
def floorCells (a p : K) : Out Nat := if p = 0 then .ub else toSize ⌊a / p⌋

/-- `static_cast<std::size_t>(std::ceil(a / p))`. -/
def ceilCells (a p : K) : Out Nat := if p = 0 then .ub else toSize ⌈a / p⌉

namespace FacePrint
variable (C : Cgal K)

/-- The loop of `rasterize` over the indexes: face_projection.cpp:309-327. -/
def rasterLoop (lr : Bool) (f : FacePrint K) (b : Box2 K) (p : K) (i0 j0 w width : Nat) :
    List Nat → List K × List Int → Out (List K × List Int)
  | [], s => .ok s
  | n :: ns, s => do
    let z ← pixelHeight C f (b.xmin + ((n % w : Nat) : K) * p) (b.ymax - ((n / w : Nat) : K) * p) p
    match z with
    | none => rasterLoop lr f b p i0 j0 w width ns s
    | some z => do
      let s' ← bump lr ((i0 + n / w) * width + j0 + n % w) z s
      rasterLoop lr f b p i0 j0 w width ns s'

/-- `FacePrint::rasterize`: face_projection.cpp:293-330: the new image and hit counts; those of a call that throws are not
modelled. The box of a face without vertices is infinite. -/
def rasterize (lr : Bool) (f : FacePrint K) (left top : K) (height width : Nat) (p : K) (s : List K × List Int) :
    Out (List K × List Int) :=
  if f.isDegenerate C then .ok s
  else
    match f.bbox with
    | none => .ub
    | some b => do
      let i0 ← floorCells (top - b.ymax) p
      let j0 ← floorCells (b.xmin - left) p
      let w ← ceilCells (b.xmax - b.xmin) p
      let h ← ceilCells (b.ymax - b.ymin) p
      if i0 + h > height ∧ j0 + w > width then .thrown .runtimeError
      else rasterLoop C lr f b p i0 j0 w width (List.range (w * h)) s

end FacePrint

namespace Raster
variable (C : Cgal K)

/-- The accumulation of raster_projection.cpp:29-37. -/
def paint (lr : Bool) (left top : K) (height width : Nat) (p : K) :
    List (FacePrint K) → List K × List Int → Out (List K × List Int)
  | [], s => .ok s
  | f :: fs, s => do
    let s' ← f.rasterize C lr left top height width p s
    paint lr left top height width p fs s'

/-- The loop of vertical_offset: raster_projection.cpp:241-242. -/
def offsetLoop (z : K) (hits : List Int) : List Nat → List K → Out (List K)
  | [], img => .ok img
  | k :: ks, img => do
    let v ← Out.atOr img k
    let n ← Out.atOr hits k
    offsetLoop z hits ks (img.set k (v + FacePrint.times (decide (n ≠ 0)) z))

/-- `vertical_offset`: raster_projection.cpp:237-246. -/
def verticalOffset (r : Raster K) : Out (Raster K) :=
  if r.offset then .ok r
  else do
    let img ← offsetLoop r.ref.z r.hits (List.range (r.height * r.width)) r.image
    .ok { r with image := img, offset := true }

/-- `RasterPrint::RasterPrint(FootPrint const&, double)`: raster_projection.cpp:19-39. -/
def ofFootPrint (lr : Bool) (fp : FootPrint K) (p : K) : Out (Raster K) :=
  match fp.brick.bbox with
  | none => .ub
  | some b => do
    let h ← ceilCells (b.ymax - b.ymin) p
    let w ← ceilCells (b.xmax - b.xmin) p
    let s ← paint C lr b.xmin b.ymax h w p fp.brick.faces (List.replicate (h * w) 0, List.replicate (h * w) 0)
    verticalOffset ⟨fp.name, ⟨fp.ref.x + b.xmin, fp.ref.y + b.ymax, fp.ref.z + 0⟩, fp.epsg, h, w, p, s.1, s.2, false⟩

/-- `at`: raster_projection.cpp:157-168. -/
def at' (r : Raster K) (i j : Nat) : Out K :=
  if i > r.height ∧ j > r.width then .thrown .outOfRange else Out.atOr r.image (i * r.width + j)

/-- `hit`: raster_projection.cpp:169-180. -/
def hit (r : Raster K) (i j : Nat) : Out Int :=
  if i > r.height ∧ j > r.width then .thrown .outOfRange else Out.atOr r.hits (i * r.width + j)

/-- An assignment through the reference returned by `at`: raster_projection.cpp:157-162. -/
def put (r : Raster K) (i j : Nat) (v : K) : Out (Raster K) := do
  let _ ← r.at' i j
  .ok { r with image := r.image.set (i * r.width + j) v }

/-- `RasterPrint::RasterPrint()`: raster_projection.cpp:17-18, raster_projection.h:62-70. -/
def empty : Raster K := ⟨[], ⟨0, 0, 0⟩, 2154, 0, 0, 6 / 100, [], [], false⟩

/-- `equal_metadata`: raster_projection.cpp:323-334. -/
def equalMetadata (r o : Raster K) : Bool :=
  decide (|r.pixel - o.pixel| < FacePrint.eps) && decide (r.ref = o.ref) && decide (r.epsg = o.epsg) && decide (r.height = o.height)
    && decide (r.width = o.width)

/-- `operator ==`: raster_projection.cpp:336-354: the value of the inner product is discarded; it reads past the end of
a second image that is shorter. -/
def eq (r o : Raster K) : Out Bool :=
  if r.equalMetadata o then (if r.image.length ≤ o.image.length then .ok true else .ub) else .ok false

/-- What a one-band GDAL dataset of doubles holds: raster size, geotransform, EPSG code of its projection (`none`: no projection) and the
band. -/
structure Dataset (K : Type) where
  width : Nat
  height : Nat
  gt : Option (K × K × K × K × K × K)
  epsg : Option Nat
  band : List K

/-- `RasterPrint::to_gdal`: raster_projection.cpp:248-289, into a dataset created with the size of the raster
(io_raster.cpp:66-73), when GDAL accepts the band. Sizes above 2^31 are not modelled. -/
def toGdal (r : Raster K) : Dataset K :=
  ⟨r.width, r.height, some (r.ref.x, r.pixel, 0, r.ref.y, 0, -r.pixel), some r.epsg, r.image⟩

/-- `RasterPrint::RasterPrint(std::string const&, GDALDataset*)`: raster_projection.cpp:40-73. `geog` is `GetEPSGGeogCS`: the EPSG code
of the geographic system of a projection, or -1. The band has one value per pixel. -/
def ofGdal (geog : Option Nat → Int) (name : Text) (d : Dataset K) : Out (Raster K) :=
  match d.gt with
  | none => .thrown .runtimeError
  | some (x, p, _, y, _, q) =>
    if |p + q| > FacePrint.eps then .thrown .logicError
    else .ok ⟨name, ⟨x, y, 0⟩, if geog d.epsg > 0 then (geog d.epsg).toNat % 2 ^ 16 else 2154, d.height, d.width, p, d.band,
      List.replicate (d.height * d.width) 1, true⟩

end Raster
end
end City
