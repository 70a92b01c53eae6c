import Verif.Model.Scene
import Verif.Model.Raster
import Verif.Model.Convert
import Verif.Spec.Value
/-
Model of the copy and move constructors, of the assignments and of the swaps of all classes, member by member, on a store of numbered objects: the two operands
can be the same object.

A move of a member gives the member of the target and leaves an unspecified value, given by the statement, in the source. Moves of members of a class of the
library (a bounding box in a mesh) are moves of the member as a whole.
-/
namespace City
open Spec

/-- The objects of one class. -/
def Store (R : Type) : Type := Nat → R

namespace Store
variable {R : Type}
/-- A write to an object. -/
def put (σ : Store R) (d : Nat) (v : R) : Store R := fun x => if x = d then v else σ x
end Store

/-- A data member of a class. -/
structure Member (R : Type) where
  T : Type
  get : R → T
  set : T → R → R

/-- The source of a member in an assignment or a constructor: the member of the other object or of `*this`. -/
inductive From where
  | other | this
  deriving DecidableEq

/-- `m = other.m` or `m = m`. -/
def copyMember {R : Type} (d s : Nat) (σ : Store R) (m : Member R × From) : Store R :=
  match m.2 with
  | .other => σ.put d (m.1.set (m.1.get (σ s)) (σ d))
  | .this => σ.put d (m.1.set (m.1.get (σ d)) (σ d))

/-- `m = std::move(other.m)`. -/
def moveMember {R : Type} (junk : R) (d s : Nat) (σ : Store R) (m : Member R) : Store R :=
  (σ.put d (m.set (m.get (σ s)) (σ d))).put s (m.set (m.get junk) ((σ.put d (m.set (m.get (σ s)) (σ d))) s))

/-- `swap(m, other.m)`. -/
def swapMember {R : Type} (a b : Nat) (σ : Store R) (m : Member R) : Store R :=
  (σ.put a (m.set (m.get (σ b)) (σ a))).put b (m.set (m.get (σ a)) ((σ.put a (m.set (m.get (σ b)) (σ a))) b))

/-- The special members of a class: the data members they handle, in the order of the text, and the value of an object whose members are default
initialised. -/
structure ClassOps (R : Type) where
  dflt : R
  copyCtor : List (Member R × From)
  moveCtor : List (Member R)
  copyAssign : List (Member R × From)
  moveAssign : List (Member R)
  swap : List (Member R)

namespace ClassOps
variable {R : Type} (C : ClassOps R)

/-- The execution of a statement. -/
def exec (σ : Store R) : Stmt R → Store R
  | .fresh d v => σ.put d v
  | .copyCtor d s => C.copyCtor.foldl (copyMember d s) (σ.put d C.dflt)
  | .moveCtor d s j => C.moveCtor.foldl (moveMember j d s) (σ.put d C.dflt)
  | .copyAssign d s => C.copyAssign.foldl (copyMember d s) σ
  | .moveAssign d s j => C.moveAssign.foldl (moveMember j d s) σ
  | .swap a b => C.swap.foldl (swapMember a b) σ

/-- The execution of a history. -/
def run (p : List (Stmt R)) (σ : Store R) : Store R := p.foldl C.exec σ

end ClassOps

/-- The whole object as a single member: `coordinates` of point.h and vector.h, `extremes` of bbox.h, `points` of face.h. -/
def wholeMember (R : Type) : Member R := ⟨R, fun r => r, fun v _ => v⟩

/-- `Point`: point.cpp:33-38, 76-90, 127-130 and `Vector`: vector.cpp:33-38, 76-92, 176-179. -/
def vecOps : ClassOps (V3 ℚ) :=
  ⟨V3.zero, [(wholeMember _, .other)], [wholeMember _], [(wholeMember _, .other)], [wholeMember _], [wholeMember _]⟩

/-- `Bbox`: bbox.cpp:48-51, 103-117, 148-151. -/
def bboxOps : ClassOps Bbox :=
  ⟨Bbox.empty, [(wholeMember _, .other)], [wholeMember _], [(wholeMember _, .other)], [wholeMember _], [wholeMember _]⟩

/-- `Face`: face.cpp:19-22, 55-69, 285-288. -/
def faceOps : ClassOps Face :=
  ⟨⟨[]⟩, [(wholeMember _, .other)], [wholeMember _], [(wholeMember _, .other)], [wholeMember _], [wholeMember _]⟩

namespace Mesh
/-- `name`: mesh.h:267-273. -/
def mName : Member Mesh := ⟨Text, Mesh.name, fun v m => { m with name := v }⟩
/-- `points`: mesh.h:267-273. -/
def mPoints : Member Mesh := ⟨List (V3 ℚ), Mesh.points, fun v m => { m with points := v }⟩
/-- `faces`: mesh.h:267-273. -/
def mFaces : Member Mesh := ⟨List Face, Mesh.faces, fun v m => { m with faces := v }⟩
/-- `bounding_box`: mesh.h:267-273. -/
def mBbox : Member Mesh := ⟨Bbox, Mesh.bbox, fun v m => { m with bbox := v }⟩
end Mesh

open Mesh in
/-- `Mesh`: mesh.cpp:21-24, 112-136, 400-403. Line 126 assigns the bounding box to itself. -/
def meshOps : ClassOps Mesh where
  dflt := Mesh.empty
  copyCtor := [(mName, .other), (mPoints, .other), (mFaces, .other), (mBbox, .other)]
  moveCtor := [mName, mPoints, mFaces, mBbox]
  copyAssign := [(mName, .other), (mPoints, .other), (mFaces, .other), (mBbox, .this)]
  moveAssign := [mName, mPoints, mFaces, mBbox]
  swap := [mName, mPoints, mFaces, mBbox]

section
variable {K : Type}

namespace UNode
/-- `name`: unode.h:298-306. -/
def mName : Member (UNode K) := ⟨Text, UNode.name, fun v m => { m with name := v }⟩
/-- `reference_point`: unode.h:298-306. -/
def mRef : Member (UNode K) := ⟨V3 ℚ, UNode.ref, fun v m => { m with ref := v }⟩
/-- `epsg_index`: unode.h:298-306. -/
def mEpsg : Member (UNode K) := ⟨Nat, UNode.epsg, fun v m => { m with epsg := v }⟩
/-- `surface`: unode.h:298-306. -/
def mSurf : Member (UNode K) := ⟨Surf K, UNode.surf, fun v m => { m with surf := v }⟩
/-- `bounding_box`: unode.h:298-306. -/
def mBox : Member (UNode K) := ⟨Option (Box3 K), UNode.box, fun v m => { m with box := v }⟩
end UNode

open UNode in
/-- `UNode`: unode.cpp:28-41, 129-157, 532-535. In the copy constructor `std::move(other.name)` of a constant string is a copy. The default constructed node,
whose surface is empty, is a parameter. -/
def nodeOps (dflt : UNode K) : ClassOps (UNode K) where
  dflt := dflt
  copyCtor := [(mName, .other), (mRef, .other), (mEpsg, .other), (mSurf, .other), (mBox, .other)]
  moveCtor := [mName, mRef, mEpsg, mSurf, mBox]
  copyAssign := [(mName, .other), (mRef, .other), (mEpsg, .other), (mSurf, .other), (mBox, .other)]
  moveAssign := [mName, mRef, mEpsg, mSurf, mBox]
  swap := [mName, mRef, mEpsg, mSurf, mBox]

namespace Scene
variable {N : Type}
/-- `pivot`: scene.h:113-119. -/
def mPivot : Member (Scene N) := ⟨V3 ℚ, Scene.pivot, fun v m => { m with pivot := v }⟩
/-- `epsg_index`: scene.h:113-119. -/
def mEpsg : Member (Scene N) := ⟨Nat, Scene.epsg, fun v m => { m with epsg := v }⟩
/-- `buildings`: scene.h:113-119. -/
def mBuildings : Member (Scene N) := ⟨List N, Scene.buildings, fun v m => { m with buildings := v }⟩
/-- `terrain`: scene.h:113-119. -/
def mTerrain : Member (Scene N) := ⟨N, Scene.terrain, fun v m => { m with terrain := v }⟩
end Scene

open Scene in
/-- `Scene`: scene.cpp:32-37, 41-67, 127-130. -/
def sceneOps {N : Type} (dflt : Scene N) : ClassOps (Scene N) where
  dflt := dflt
  copyCtor := [(mPivot, .other), (mEpsg, .other), (mBuildings, .other), (mTerrain, .other)]
  moveCtor := [mPivot, mEpsg, mBuildings, mTerrain]
  copyAssign := [(mPivot, .other), (mEpsg, .other), (mBuildings, .other), (mTerrain, .other)]
  moveAssign := [mPivot, mEpsg, mBuildings, mTerrain]
  swap := [mPivot, mEpsg, mBuildings, mTerrain]

namespace FacePrint
/-- `id`: face_projection.h:81-83. -/
def mId : Member (FacePrint K) := ⟨Nat, FacePrint.id, fun v m => { m with id := v }⟩
/-- `border`: face_projection.h:81-83. -/
def mBorder : Member (FacePrint K) := ⟨Pwh K, FacePrint.border, fun v m => { m with border := v }⟩
/-- `supporting_plane`: face_projection.h:81-83. -/
def mPlane : Member (FacePrint K) := ⟨Plane K, FacePrint.plane, fun v m => { m with plane := v }⟩
end FacePrint

open FacePrint in
/-- `FacePrint`: face_projection.cpp:60-90, 353-356. -/
def facePrintOps (dflt : FacePrint K) : ClassOps (FacePrint K) where
  dflt := dflt
  copyCtor := [(mId, .other), (mBorder, .other), (mPlane, .other)]
  moveCtor := [mId, mBorder, mPlane]
  copyAssign := [(mId, .other), (mBorder, .other), (mPlane, .other)]
  moveAssign := [mId, mBorder, mPlane]
  swap := [mId, mBorder, mPlane]

namespace Brick
/-- `bounding_box`: brick_projection.h:71-72. -/
def mBbox : Member (Brick K) := ⟨Option (Box2 K), Brick.bbox, fun v m => { m with bbox := v }⟩
/-- `projected_facets`: brick_projection.h:71-72. -/
def mFaces : Member (Brick K) := ⟨List (FacePrint K), Brick.faces, fun v m => { m with faces := v }⟩
end Brick

open Brick in
/-- `BrickPrint`: brick_projection.cpp:38-71, 448-451. -/
def brickOps : ClassOps (Brick K) where
  dflt := ⟨none, []⟩
  copyCtor := [(mBbox, .other), (mFaces, .other)]
  moveCtor := [mBbox, mFaces]
  copyAssign := [(mBbox, .other), (mFaces, .other)]
  moveAssign := [mBbox, mFaces]
  swap := [mBbox, mFaces]

namespace FootPrint
/-- `name`: scene_projection.h:52-55. -/
def mName : Member (FootPrint K) := ⟨Text, FootPrint.name, fun v m => { m with name := v }⟩
/-- `reference_point`: scene_projection.h:52-55. -/
def mRef : Member (FootPrint K) := ⟨V3 K, FootPrint.ref, fun v m => { m with ref := v }⟩
/-- `epsg_index`: scene_projection.h:52-55. -/
def mEpsg : Member (FootPrint K) := ⟨Nat, FootPrint.epsg, fun v m => { m with epsg := v }⟩
/-- `projection`: scene_projection.h:52-55. -/
def mBrick : Member (FootPrint K) := ⟨Brick K, FootPrint.brick, fun v m => { m with brick := v }⟩
end FootPrint

open FootPrint in
/-- `FootPrint`: scene_projection.cpp:35-70, 190-193. -/
def footPrintOps (dflt : FootPrint K) : ClassOps (FootPrint K) where
  dflt := dflt
  copyCtor := [(mName, .other), (mRef, .other), (mEpsg, .other), (mBrick, .other)]
  moveCtor := [mName, mRef, mEpsg, mBrick]
  copyAssign := [(mName, .other), (mRef, .other), (mEpsg, .other), (mBrick, .other)]
  moveAssign := [mName, mRef, mEpsg, mBrick]
  swap := [mName, mRef, mEpsg, mBrick]

namespace Raster
/-- `name`: raster_projection.h:61-69. -/
def mName : Member (Raster K) := ⟨Text, Raster.name, fun v m => { m with name := v }⟩
/-- `reference_point`: raster_projection.h:61-69. -/
def mRef : Member (Raster K) := ⟨V3 K, Raster.ref, fun v m => { m with ref := v }⟩
/-- `epsg_index`: raster_projection.h:61-69. -/
def mEpsg : Member (Raster K) := ⟨Nat, Raster.epsg, fun v m => { m with epsg := v }⟩
/-- `height`: raster_projection.h:61-69. -/
def mHeight : Member (Raster K) := ⟨Nat, Raster.height, fun v m => { m with height := v }⟩
/-- `width`: raster_projection.h:61-69. -/
def mWidth : Member (Raster K) := ⟨Nat, Raster.width, fun v m => { m with width := v }⟩
/-- `pixel_size`: raster_projection.h:61-69. -/
def mPixel : Member (Raster K) := ⟨K, Raster.pixel, fun v m => { m with pixel := v }⟩
/-- `image_matrix`: raster_projection.h:61-69. -/
def mImage : Member (Raster K) := ⟨List K, Raster.image, fun v m => { m with image := v }⟩
/-- `pixel_hits`: raster_projection.h:61-69. -/
def mHits : Member (Raster K) := ⟨List Int, Raster.hits, fun v m => { m with hits := v }⟩
/-- `offset`: raster_projection.h:61-69. -/
def mOffset : Member (Raster K) := ⟨Bool, Raster.offset, fun v m => { m with offset := v }⟩
end Raster

open Raster in
/-- `RasterPrint`: raster_projection.cpp:74-95, 142-155, 207-235, 362-365. -/
def rasterOps (dflt : Raster K) : ClassOps (Raster K) where
  dflt := dflt
  copyCtor := [(mName, .other), (mRef, .other), (mEpsg, .other), (mHeight, .other), (mWidth, .other), (mPixel, .other), (mImage, .other), (mHits, .other),
    (mOffset, .other)]
  moveCtor := [mName, mRef, mEpsg, mHeight, mWidth, mPixel, mImage, mHits, mOffset]
  copyAssign := [(mName, .other), (mRef, .other), (mEpsg, .other), (mHeight, .other), (mWidth, .other), (mPixel, .other), (mImage, .other), (mHits, .other),
    (mOffset, .other)]
  moveAssign := [mName, mRef, mEpsg, mHeight, mWidth, mPixel, mImage, mHits, mOffset]
  swap := [mName, mRef, mEpsg, mHeight, mWidth, mPixel, mImage, mHits, mOffset]

/-- `projection::Camera`: camera.h:29-32. The affine transformations of CGAL are parameters. -/
structure Camera (A2 A3 V : Type) where
  name : Text
  calibration : A2
  position : V
  orientation : A3

namespace Camera
variable {A2 A3 V : Type}
/-- `name`: camera.h:29-32. -/
def mName : Member (Camera A2 A3 V) := ⟨Text, Camera.name, fun v m => { m with name := v }⟩
/-- `calibration`: camera.h:29-32. -/
def mCalibration : Member (Camera A2 A3 V) := ⟨A2, Camera.calibration, fun v m => { m with calibration := v }⟩
/-- `position`: camera.h:29-32. -/
def mPosition : Member (Camera A2 A3 V) := ⟨V, Camera.position, fun v m => { m with position := v }⟩
/-- `orientation`: camera.h:29-32. -/
def mOrientation : Member (Camera A2 A3 V) := ⟨A3, Camera.orientation, fun v m => { m with orientation := v }⟩
end Camera

open Camera in
/-- `Camera`: camera.cpp:35-74, 77-80. -/
def cameraOps {A2 A3 V : Type} (dflt : Camera A2 A3 V) : ClassOps (Camera A2 A3 V) where
  dflt := dflt
  copyCtor := [(mName, .other), (mCalibration, .other), (mPosition, .other), (mOrientation, .other)]
  moveCtor := [mName, mCalibration, mPosition, mOrientation]
  copyAssign := [(mName, .other), (mCalibration, .other), (mPosition, .other), (mOrientation, .other)]
  moveAssign := [mName, mCalibration, mPosition, mOrientation]
  swap := [mName, mCalibration, mPosition, mOrientation]

end
end City
