import Verif.Model.Value
/-
Model of the compound assignments (`+=`, `-=`, `^=`) on a store of numbered objects, statement by statement: the right side can be the object that is changed.
A use of references or iterators after the container they point into was changed is undefined (`Out.ub`).
-/
namespace City
open Spec

section
variable {K : Type} [Ring K]

/-- `coordinates += other.coordinates`, element by element: `Vector::operator +=`, vector.cpp:94-98. -/
def V3.addAt (a b : Nat) (σ : Store (V3 K)) : Store (V3 K) :=
  let σ1 := σ.put a { σ a with x := (σ a).x + (σ b).x }
  let σ2 := σ1.put a { σ1 a with y := (σ1 a).y + (σ1 b).y }
  σ2.put a { σ2 a with z := (σ2 a).z + (σ2 b).z }

/-- `Vector::operator -=`: vector.cpp:112-116. -/
def V3.subAt (a b : Nat) (σ : Store (V3 K)) : Store (V3 K) :=
  let σ1 := σ.put a { σ a with x := (σ a).x - (σ b).x }
  let σ2 := σ1.put a { σ1 a with y := (σ1 a).y - (σ1 b).y }
  σ2.put a { σ2 a with z := (σ2 a).z - (σ2 b).z }

/-- `Vector::operator ^=`: vector.cpp:118-126. The coordinates of `*this` are copied first, those of `other` are read one after the other. -/
def V3.crossAt (a b : Nat) (σ : Store (V3 K)) : Store (V3 K) :=
  let c := σ a
  let σ1 := σ.put a { σ a with x := c.y * (σ b).z - c.z * (σ b).y }
  let σ2 := σ1.put a { σ1 a with y := c.z * (σ1 b).x - c.x * (σ1 b).z }
  σ2.put a { σ2 a with z := c.x * (σ2 b).y - c.y * (σ2 b).x }

/-- `operator ^`: vector.cpp:165-169: `n` is the new object `result`. -/
def V3.crossNew (n a b : Nat) (σ : Store (V3 K)) : Store (V3 K) := V3.crossAt n b (σ.put n (σ a))

end

/-- `Bbox::operator +=`: bbox.cpp:119-128. -/
def Bbox.unionAt (a b : Nat) (σ : Store Bbox) : Store Bbox :=
  let σ1 := σ.put a { σ a with xmin := .cmin (σ a).xmin (σ b).xmin }
  let σ2 := σ1.put a { σ1 a with xmax := .cmax (σ1 a).xmax (σ1 b).xmax }
  let σ3 := σ2.put a { σ2 a with ymin := .cmin (σ2 a).ymin (σ2 b).ymin }
  let σ4 := σ3.put a { σ3 a with ymax := .cmax (σ3 a).ymax (σ3 b).ymax }
  let σ5 := σ4.put a { σ4 a with zmin := .cmin (σ4 a).zmin (σ4 b).zmin }
  σ5.put a { σ5 a with zmax := .cmax (σ5 a).zmax (σ5 b).zmax }

namespace Mesh

/-- The bounding box and the name: mesh.cpp:259-260. -/
def appendHead (a b : Nat) (σ : Store Mesh) : Store Mesh :=
  let σ1 := σ.put a { σ a with name := (σ a).name ++ ('_' :: (σ b).name) }
  σ1.put a { σ1 a with bbox := (σ1 a).bbox.union (σ1 b).bbox }

/-- The points and the faces, from another object: mesh.cpp:262-276. -/
def appendTail (a b : Nat) (σ : Store Mesh) : Store Mesh :=
  let diff := (σ a).points.length
  let shift := (σ a).faces.length
  let σ1 := σ.put a { σ a with points := (σ a).points ++ (σ b).points }
  let σ2 := σ1.put a { σ1 a with faces := (σ1 a).faces ++ (σ1 b).faces }
  σ2.put a { σ2 a with faces := (σ2 a).faces.take shift ++ ((σ2 a).faces.drop shift).map (fun f => f.offset diff) }

/-- `Mesh::operator +=`: mesh.cpp:253-279. `std::vector::insert` of a range of the vector itself is undefined. -/
def appendAt (a b : Nat) (σ : Store Mesh) : Out (Store Mesh) :=
  if (σ a).isEmpty then .ok (meshOps.run [.copyAssign a b] σ)
  else if a = b then .ub
  else .ok (appendTail a b (appendHead a b σ))

/-- `operator +`: mesh.cpp:361-364: `n` is the temporary object. -/
def addNew (n a b : Nat) (σ : Store Mesh) : Out (Store Mesh) := appendAt n b (meshOps.run [.copyCtor n a] σ)

end Mesh

section
variable {K : Type} [Field K] [LinearOrder K] (C : Cgal K)

namespace Brick

/-- `operator +=(FacePrint const&)` for a face of the print itself: brick_projection.cpp:293-323. When the faces are changed (lines 300 and 316) the reference
`lfacet` of line 320 is invalid. -/
def addOwn (b : Brick K) (f : FacePrint K) : Out (Brick K) :=
  if !b.overlaps C f.border then .ub
  else do
    let u ← b.isUnder C f
    if u then .ok ⟨Box2.union b.bbox f.bbox, b.faces⟩ else .ub

/-- The loop of `operator +=(BrickPrint const&)` over the faces of the print itself: brick_projection.cpp:328-332. -/
def selfLoop : Brick K → List (FacePrint K) → Out (Brick K)
  | b, [] => .ok b
  | b, f :: fs =>
    if !f.isEmpty && !f.isDegenerate C then do
      let b' ← b.addOwn C f
      selfLoop b' fs
    else selfLoop b fs

/-- `b += b`: brick_projection.cpp:324-337. -/
def addSelf (b : Brick K) : Out (Brick K) := do
  let b' ← selfLoop C (b.filter C) (b.filter C).faces
  .ok (b'.filter C)

/-- `operator +=(BrickPrint const&)` for one object or two: brick_projection.cpp:324-337. -/
def addEither (same : Bool) (b o : Brick K) : Out (Brick K) := if same then b.addSelf C else b.addBrick C o

/-- `operator +=(BrickPrint const&)`: brick_projection.cpp:324-337. -/
def addAt (x y : Nat) (σ : Store (Brick K)) : Out (Store (Brick K)) := do
  let v ← addEither C (x == y) (σ x) (σ y)
  .ok (σ.put x v)

/-- `operator +`: brick_projection.cpp:433-437: `n` is the new object `result`. -/
def addNew (n a b : Nat) (σ : Store (Brick K)) : Out (Store (Brick K)) := addAt C n b (brickOps.run [.copyCtor n a] σ)

end Brick

/-- `FootPrint::operator +=`: scene_projection.cpp:135-147. -/
def FootPrint.addAt (x y : Nat) (σ : Store (FootPrint K)) : Out (Store (FootPrint K)) :=
  if (σ x).brick.isEmpty then .ok ((footPrintOps FootPrint.empty).run [.copyAssign x y] σ)
  else if (σ x).ref ≠ (σ y).ref ∨ (σ x).epsg ≠ (σ y).epsg then .thrown .logicError
  else do
    let v ← Brick.addEither C (x == y) (σ x).brick (σ y).brick
    .ok (σ.put x { σ x with brick := v })

/-- `operator +`: scene_projection.cpp:183-187: `n` is the new object `result`. -/
def FootPrint.addNew (n a b : Nat) (σ : Store (FootPrint K)) : Out (Store (FootPrint K)) :=
  FootPrint.addAt C n b ((footPrintOps FootPrint.empty).run [.copyCtor n a] σ)

end
end City
