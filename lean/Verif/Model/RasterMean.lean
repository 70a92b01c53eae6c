import Verif.Model.RasterDbl
/-
The values of the pixels in doubles: the running means of /repo/src/lib/projection/face_projection.cpp:318-326, the means over the parts of a face in a pixel,
face_projection.cpp:159-180, and the vertical offset of /repo/src/lib/projection/raster_projection.cpp:237-246, with every operation on heights rounded by `rm`
(`rd` rounds the operations on positions, as in Model/RasterDbl.lean). The height of the plane of a face at the centroid of a part is a parameter `ph`.
Heights beyond 2^1024 are not turned into infinities.
-/
namespace City

section
variable {K : Type} [Field K] [LinearOrder K]

namespace FacePrint
variable (C : Cgal K)

/-- `get_plane_height(InexactPoint_2)` with rounded operations: face_projection.cpp:123-129. The product of -1 and a double is exact, and so are conversions: `C.toDouble`
is the conversion of the coefficients. -/
def planeHeightD (rm : K → K) (f : FacePrint K) (p : V2 K) : Out K :=
  if |C.toDouble f.plane.c| < eps then .thrown .overflowError
  else .ok (rm (rm (rm (-C.toDouble f.plane.d - rm (C.toDouble f.plane.a * p.x)) - rm (C.toDouble f.plane.b * p.y)) / C.toDouble f.plane.c))

/-- The inner product of get_height: face_projection.cpp:166-177: the heights of the parts, divided by their number, are summed in order from 0. -/
def partsD (rm : K → K) (ph : Pwh K → Out K) (n : K) : List (Pwh K) → K → Out K
  | [], s => .ok s
  | q :: qs, s => do
    let z ← ph q
    partsD rm ph n qs (rm (s + rm (z / n)))

/-- `get_height(double, double, double, bool &)` with the square already made: face_projection.cpp:149-180. The number of parts is a double exactly below 2^53. -/
def heightD (rm : K → K) (ph : Pwh K → Out K) (f : FacePrint K) (q : Pwh K) : Out (Option K) :=
  if (C.inter q f.border).isEmpty then .ok none
  else do
    let z ← partsD rm ph ((C.inter q f.border).length : K) (C.inter q f.border) 0
    .ok (some z)

/-- The assignment of face_projection.cpp:318-326: the product, the sum and the quotient are rounded; the hit counts are `short`, so that their conversion is exact. -/
def bumpD (rm : K → K) (lr : Bool) (k : Nat) (z : K) (s : List K × List Int) : Out (List K × List Int) := do
  let v ← Out.atOr s.1 k
  let n ← Out.atOr s.2 k
  .ok (s.1.set k (rm (rm (rm (v * ((if lr then n else shortSucc n : Int) : K)) + z) / (shortSucc n : K))), s.2.set k (shortSucc n))

end FacePrint
end

section
variable {K : Type} [Field K] [LinearOrder K] [FloorRing K]

namespace FacePrint
variable (C : Cgal K)

/-- The loop of `rasterize` over the indexes: face_projection.cpp:309-327. -/
def rasterLoopD (rd rm : K → K) (ph : FacePrint K → Pwh K → Out K) (lr : Bool) (f : FacePrint K) (b : Box2 K) (p : K) (i0 j0 w width : Nat) :
    List Nat → List K × List Int → Out (List K × List Int)
  | [], s => .ok s
  | n :: ns, s => do
    let z ← heightD C rm (ph f) f (squareR rd (rd (b.xmin + rd (rd ((n % w : Nat) : K) * p))) (rd (b.ymax - rd (rd ((n / w : Nat) : K) * p))) p)
    match z with
    | none => rasterLoopD rd rm ph lr f b p i0 j0 w width ns s
    | some z => do
      let s' ← bumpD rm lr ((i0 + n / w) * width + j0 + n % w) z s
      rasterLoopD rd rm ph lr f b p i0 j0 w width ns s'

/-- `FacePrint::rasterize`: face_projection.cpp:293-330. -/
def rasterizeD (rd rm : K → K) (ph : FacePrint K → Pwh K → Out K) (lr : Bool) (f : FacePrint K) (left top : K) (height width : Nat) (p : K)
    (s : List K × List Int) : Out (List K × List Int) :=
  if f.isDegenerate C then .ok s
  else
    match f.bbox with
    | none => .ub
    | some b => do
      let i0 ← floorCellsR rd top b.ymax p
      let j0 ← floorCellsR rd b.xmin left p
      let w ← ceilCellsR rd b.xmax b.xmin p
      let h ← ceilCellsR rd b.ymax b.ymin p
      if i0 + h > height ∧ j0 + w > width then .thrown .runtimeError
      else rasterLoopD C rd rm ph lr f b p i0 j0 w width (List.range (w * h)) s

end FacePrint

namespace Raster
variable (C : Cgal K)

/-- The accumulation of raster_projection.cpp:29-37. -/
def paintD (rd rm : K → K) (ph : FacePrint K → Pwh K → Out K) (lr : Bool) (left top : K) (height width : Nat) (p : K) :
    List (FacePrint K) → List K × List Int → Out (List K × List Int)
  | [], s => .ok s
  | f :: fs, s => do
    let s' ← f.rasterizeD C rd rm ph lr left top height width p s
    paintD rd rm ph lr left top height width p fs s'

/-- The loop of vertical_offset: raster_projection.cpp:241-242. The product of a Boolean and a double is exact. -/
def offsetLoopD (rm : K → K) (z : K) (hits : List Int) : List Nat → List K → Out (List K)
  | [], img => .ok img
  | k :: ks, img => do
    let v ← Out.atOr img k
    let n ← Out.atOr hits k
    offsetLoopD rm z hits ks (img.set k (rm (v + FacePrint.times (decide (n ≠ 0)) z)))

/-- `RasterPrint::RasterPrint(FootPrint const&, double)`: raster_projection.cpp:19-39, with `vertical_offset`: raster_projection.cpp:237-246. -/
def ofFootPrintD (rd rm : K → K) (ph : FacePrint K → Pwh K → Out K) (lr : Bool) (fp : FootPrint K) (p : K) : Out (Raster K) :=
  match fp.brick.bbox with
  | none => .ub
  | some b => do
    let h ← ceilCellsR rd b.ymax b.ymin p
    let w ← ceilCellsR rd b.xmax b.xmin p
    let s ← paintD C rd rm ph lr b.xmin b.ymax h w p fp.brick.faces (List.replicate (h * w) 0, List.replicate (h * w) 0)
    let img ← offsetLoopD rm (fp.ref.z + 0) s.2 (List.range (h * w)) s.1
    .ok ⟨fp.name, ⟨rd (fp.ref.x + b.xmin), rd (fp.ref.y + b.ymax), fp.ref.z + 0⟩, fp.epsg, h, w, p, img, s.2, true⟩

end Raster
end
end City
