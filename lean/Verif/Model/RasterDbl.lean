import Verif.Model.Raster
import Verif.Model.Float
/-
The raster part of /repo/src/lib/projection/face_projection.cpp and raster_projection.cpp with the positions, the numbers of rows and columns and the
corners of the pixels computed by rounded operations: `rd` is the rounding of one operation. With `rd = fl` (Model/Float.lean) these are the operations of IEEE
doubles; with `rd = id` they are those of Model/Raster.lean. The heights and the running means are those of Model/Raster.lean: they are not rounded. Positions beyond 2^1024 are
not turned into infinities.
-/
namespace City

section
variable {K : Type} [Field K] [LinearOrder K]

namespace FacePrint
variable (C : Cgal K)

/-- The square of pixel_intersection: face_projection.cpp:142-147: `x + p` and `y - p` are rounded. -/
def squareR (rd : K → K) (x y p : K) : Pwh K := ⟨[⟨x, y⟩, ⟨x, rd (y - p)⟩, ⟨rd (x + p), rd (y - p)⟩, ⟨rd (x + p), y⟩], []⟩

/-- `get_height(double, double, double, bool &)` with the square already made: face_projection.cpp:149-180. -/
def heightIn (f : FacePrint K) (q : Pwh K) : Out (Option K) :=
  if (C.inter q f.border).isEmpty then .ok none
  else do
    let z ← partHeights C f ((C.inter q f.border).length : K) (C.inter q f.border) 0
    .ok (some z)

end FacePrint
end

section
variable {K : Type} [Field K] [LinearOrder K] [FloorRing K]

/-- `static_cast<std::size_t>(std::floor((a - b) / p))`: face_projection.cpp:298-299. A quotient that is too large is undefined, infinite or not. -/
def floorCellsR (rd : K → K) (a b p : K) : Out Nat := if p = 0 then .ub else toSize ⌊rd (rd (a - b) / p)⌋

/-- `static_cast<std::size_t>(std::ceil((a - b) / p))`: face_projection.cpp:300-301, raster_projection.cpp:23-24. -/
def ceilCellsR (rd : K → K) (a b p : K) : Out Nat := if p = 0 then .ub else toSize ⌈rd (rd (a - b) / p)⌉

namespace FacePrint
variable (C : Cgal K)

/-- The loop of `rasterize` over the indexes: face_projection.cpp:309-327. -/
def rasterLoopR (rd : K → K) (lr : Bool) (f : FacePrint K) (b : Box2 K) (p : K) (i0 j0 w width : Nat) :
    List Nat → List K × List Int → Out (List K × List Int)
  | [], s => .ok s
  | n :: ns, s => do
    let z ← heightIn C f (squareR rd (rd (b.xmin + rd (rd ((n % w : Nat) : K) * p))) (rd (b.ymax - rd (rd ((n / w : Nat) : K) * p))) p)
    match z with
    | none => rasterLoopR rd lr f b p i0 j0 w width ns s
    | some z => do
      let s' ← bump lr ((i0 + n / w) * width + j0 + n % w) z s
      rasterLoopR rd lr f b p i0 j0 w width ns s'

/-- `FacePrint::rasterize`: face_projection.cpp:293-330. -/
def rasterizeR (rd : K → K) (lr : Bool) (f : FacePrint K) (left top : K) (height width : Nat) (p : K) (s : List K × List Int) :
    Out (List K × List Int) :=
  if f.isDegenerate C then .ok s
  else
    match f.bbox with
    | none => .ub
    | some b => do
      let i0 ← floorCellsR rd top b.ymax p
      let j0 ← floorCellsR rd b.xmin left p
      let w ← ceilCellsR rd b.xmax b.xmin p
      let h ← ceilCellsR rd b.ymax b.ymin p
      if i0 + h > height ∧ j0 + w > width then .thrown .runtimeError
      else rasterLoopR C rd lr f b p i0 j0 w width (List.range (w * h)) s

end FacePrint

namespace Raster
variable (C : Cgal K)

/-- The accumulation of raster_projection.cpp:29-37. -/
def paintR (rd : K → K) (lr : Bool) (left top : K) (height width : Nat) (p : K) :
    List (FacePrint K) → List K × List Int → Out (List K × List Int)
  | [], s => .ok s
  | f :: fs, s => do
    let s' ← f.rasterizeR C rd lr left top height width p s
    paintR rd lr left top height width p fs s'

/-- `RasterPrint::RasterPrint(FootPrint const&, double)`: raster_projection.cpp:19-39. -/
def ofFootPrintR (rd : K → K) (lr : Bool) (fp : FootPrint K) (p : K) : Out (Raster K) :=
  match fp.brick.bbox with
  | none => .ub
  | some b => do
    let h ← ceilCellsR rd b.ymax b.ymin p
    let w ← ceilCellsR rd b.xmax b.xmin p
    let s ← paintR C rd lr b.xmin b.ymax h w p fp.brick.faces (List.replicate (h * w) 0, List.replicate (h * w) 0)
    verticalOffset ⟨fp.name, ⟨rd (fp.ref.x + b.xmin), rd (fp.ref.y + b.ymax), fp.ref.z + 0⟩, fp.epsg, h, w, p, s.1, s.2, false⟩

end Raster
end
end City
