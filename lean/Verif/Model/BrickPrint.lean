import Verif.Model.FacePrint
/-
Model of /repo/src/lib/projection/brick_projection.cpp. Loops over vectors are recursions over lists; a Boolean operation of CGAL on
polygons that violate its preconditions (not simple, wrongly oriented) is whatever the field of `Cgal` returns.
-/
namespace City

/-- `projection::BrickPrint`: brick_projection.h:71-72; `bbox = none` is the default `Bbox_2`. -/
structure Brick (K : Type) where
  bbox : Option (Box2 K)
  faces : List (FacePrint K)
  deriving DecidableEq

section
variable {K : Type} [Field K] [LinearOrder K]

/-- The loop of CGAL's `operator ==(Polygon_with_holes_2, Polygon_with_holes_2)`: every hole is found and removed. -/
def holesEq : List (Poly K) → List (Poly K) → Bool
  | [], t => t.isEmpty
  | h :: hs, t =>
    match t.find? (fun g => polyEq g h) with
    | none => false
    | some g => holesEq hs (t.erase g)

/-- CGAL's `operator ==(Polygon_with_holes_2, Polygon_with_holes_2)`. -/
def pwhEq (p q : Pwh K) : Bool :=
  p.holes.length == q.holes.length && polyEq p.outer q.outer && holesEq p.holes q.holes

/-- `CGAL::centroid` of the first three vertices of the outer boundary: brick_projection.cpp:170-176 and 362; `[]` on
a polygon with fewer vertices is undefined. -/
def sample (q : Pwh K) : Out (V2 K) :=
  match q.outer with
  | a :: b :: c :: _ => .ok ⟨(a.x + b.x + c.x) / 3, (a.y + b.y + c.y) / 3⟩
  | _ => .ub

namespace Brick
variable (C : Cgal K)

/-- `BrickPrint::BrickPrint()`: brick_projection.cpp:19-20. -/
def empty : Brick K := ⟨none, []⟩

/-- `BrickPrint::BrickPrint(FacePrint const&)`: brick_projection.cpp:21-24. -/
def ofFace (f : FacePrint K) : Brick K := ⟨f.bbox, [f]⟩

/-- `is_empty`: brick_projection.cpp:106-109. -/
def isEmpty (b : Brick K) : Bool := b.faces.isEmpty

/-- `contains(Point_2)`: brick_projection.cpp:112-122. -/
def contains (b : Brick K) (p : V2 K) : Bool := b.faces.any fun f => f.contains C p

/-- The loop `ps.join(_facet.get_polygon())`: brick_projection.cpp:134-136, 144-146, 152-154, 240-242. -/
def joinAll (fs : List (FacePrint K)) : C.PSet := fs.foldl (fun s f => C.join s f.border) C.emptySet

/-- `contains(FacePrint)`: brick_projection.cpp:132-141. -/
def containsFace (b : Brick K) (f : FacePrint K) : Bool :=
  match C.pieces (C.meet (joinAll C b.faces) f.border) with
  | [q] => pwhEq q f.border
  | _ => false

/-- `overlaps`: brick_projection.cpp:142-161. -/
def overlaps (b : Brick K) (q : Pwh K) : Bool := !C.isEmpty (C.meet (joinAll C b.faces) q)

/-- The accumulation of get_height: brick_projection.cpp:186-194. -/
def sumHeights (p : V2 K) : List (FacePrint K) → K → Out K
  | [], z => .ok z
  | f :: fs, z => do
    let h ← f.height C p
    sumHeights p fs (z + h)

/-- `get_height(Point_2)`: brick_projection.cpp:182-196. -/
def height (b : Brick K) (p : V2 K) : Out K :=
  if b.contains C p then sumHeights C p b.faces 0 else .ok 0

/-- `is_under`: brick_projection.cpp:162-180. -/
def isUnder (b : Brick K) (f : FacePrint K) : Out Bool :=
  if f.isPerpendicular || f.isDegenerate C then .ok true
  else do
    let p ← sample f.border
    if b.containsFace C f then do
      let z ← f.height C p
      let w ← b.height C p
      .ok (decide (z ≤ w))
    else .ok false

/-- `areas` and `area`: brick_projection.cpp:213-237. -/
def area (b : Brick K) : K := (b.faces.map (FacePrint.area C)).foldl (· + ·) 0

/-- The condition of `filter`: brick_projection.cpp:284-287. -/
def keep (f : FacePrint K) : Bool := !(f.isEmpty || f.isDegenerate C)

/-- `filter`: brick_projection.cpp:278-291. -/
def filter (b : Brick K) : Brick K := { b with faces := b.faces.filter (keep C) }

/-- The loop over the pieces of an intersection: brick_projection.cpp:360-368. -/
def carve (l r : FacePrint K) : List (Pwh K) → C.PSet → C.PSet → Out (C.PSet × C.PSet)
  | [], sl, sr => .ok (sl, sr)
  | q :: qs, sl, sr => do
    let p ← sample q
    let zl ← l.planeHeight C p
    let zr ← r.planeHeight C p
    if zl > zr then carve l r qs sl (C.minus sr q) else carve l r qs (C.minus sl q) sr

/-- The body of the loop of `occlusion`: brick_projection.cpp:346-373: what is appended to `lhs` and to `rhs`. -/
def occludeOne (l r : FacePrint K) : Out (List (FacePrint K) × List (FacePrint K)) :=
  if (C.inter l.border r.border).isEmpty then .ok ([l], [r])
  else do
    let s ← carve C l r (C.inter l.border r.border) (C.ofPwh l.border) (C.ofPwh r.border)
    .ok (unpack C [] s.1 l.id l.plane, unpack C [] s.2 r.id r.plane)

/-- `occlusion`: brick_projection.cpp:339-377: the returned list and the new faces of the object. -/
def occlusion (fs : List (FacePrint K)) (l : FacePrint K) : Out (List (FacePrint K) × List (FacePrint K)) := do
  let parts ← Out.mapM (occludeOne C l) (fs.filter (keep C))
  .ok (parts.flatMap (·.1), parts.flatMap (·.2))

/-- The loop of `operator +=`: brick_projection.cpp:310-314: `result` and the remaining `lfacets`. -/
def addLoop : List (FacePrint K) → List (FacePrint K) → Out (List (FacePrint K) × List (FacePrint K))
  | lf, [] => .ok ([], lf)
  | lf, r :: rs => do
    let t ← occlusion C lf r
    let u ← addLoop t.2 rs
    .ok (t.1 ++ u.1, u.2)

/-- `operator +=(FacePrint const&)`: brick_projection.cpp:293-323. -/
def addFace (b : Brick K) (l : FacePrint K) : Out (Brick K) :=
  if b.faces.isEmpty then .ok ⟨Box2.union b.bbox l.bbox, [l]⟩
  else if !b.overlaps C l.border then .ok ⟨Box2.union b.bbox l.bbox, b.faces ++ [l]⟩
  else do
    let u ← b.isUnder C l
    if u then .ok ⟨Box2.union b.bbox l.bbox, b.faces⟩
    else do
      let t ← addLoop C [l] b.faces
      .ok ⟨Box2.union b.bbox l.bbox, t.1 ++ t.2⟩

/-- The loop of `operator +=(BrickPrint const&)`: brick_projection.cpp:328-332. -/
def addFaces : Brick K → List (FacePrint K) → Out (Brick K)
  | b, [] => .ok b
  | b, f :: fs =>
    if !f.isEmpty && !f.isDegenerate C then do
      let b' ← b.addFace C f
      addFaces b' fs
    else addFaces b fs

/-- `operator +=(BrickPrint const&)`: brick_projection.cpp:324-337, for an argument that is another object. -/
def addBrick (b o : Brick K) : Out (Brick K) := do
  let b' ← addFaces C (b.filter C) o.faces
  .ok (b'.filter C)

/-- The common prefix skipped by `std::is_permutation` (libstdc++, bits/stl_algo.h). -/
def skipPrefix : List (FacePrint K) → List (FacePrint K) → List (FacePrint K) × List (FacePrint K)
  | f :: fs, g :: gs => if f.eq g then skipPrefix fs gs else (f :: fs, g :: gs)
  | fs, gs => (fs, gs)

/-- The main loop of `std::is_permutation` (libstdc++): values seen before are skipped, every other one must occur in the
second range, as often as in the rest of the first. -/
def countLoop (gs : List (FacePrint K)) : List (FacePrint K) → List (FacePrint K) → Bool
  | _, [] => true
  | seen, f :: t =>
    if seen.any (fun x => f.eq x) then countLoop gs (seen ++ [f]) t
    else if gs.countP (fun x => f.eq x) == 0 || (f :: t).countP (fun x => f.eq x) != gs.countP (fun x => f.eq x) then false
    else countLoop gs (seen ++ [f]) t

/-- `std::is_permutation` on two ranges of the same length. -/
def isPermutation (fs gs : List (FacePrint K)) : Bool :=
  countLoop (skipPrefix fs gs).2 [] (skipPrefix fs gs).1

/-- `operator ==`: brick_projection.cpp:411-423 and 438-441. -/
def eq (a b : Brick K) : Bool := a.faces.length == b.faces.length && isPermutation a.faces b.faces

/-- `BrickPrint::BrickPrint(OGRLayer*)`: brick_projection.cpp:25-37: the features of the layer, in order. -/
def ofOgr : List (Feature K) → Brick K → Out (Brick K)
  | [], b => .ok b
  | x :: xs, b => do
    let f ← FacePrint.ofOgr x
    ofOgr xs ⟨Box2.union b.bbox f.bbox, b.faces ++ [f]⟩

/-- `to_ogr`: brick_projection.cpp:379-409: the features written, when GDAL accepts them. -/
def toOgr (ref : V3 K) (b : Brick K) : List (Feature K) := b.faces.map (FacePrint.toOgr C ref)

end Brick
end
end City
