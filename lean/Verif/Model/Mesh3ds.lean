import Verif.Model.Face3ds
import Verif.Model.Mesh
import Mathlib.Data.Real.Basic
/-
Model of `Mesh::to_3ds` (/repo/src/lib/shadow/mesh.cpp:281-330) and of `Mesh::Mesh(Lib3dsMesh*)` (mesh.cpp:25-63).
Simplifications: `float` and `double` are exact reals; allocation succeeds; a negative face count (only possible
with faces of degree < 2) is treated as an allocation without room. The bounding box recomputed at mesh.cpp:62 is the
subject of Bbox.lean and is not part of this record.
-/
namespace City

/-- Name, points and faces of a mesh, with real coordinates. -/
structure RMesh where
  name : Text
  points : List (V3 ℝ)
  faces : List Face

/-- `Lib3dsMesh` as far as the code uses it. -/
structure Mesh3ds where
  name : Text
  points : List (V3 ℝ)
  faces : List Face3ds

/-- The C string of a name: `c_str()` stops at the first NUL. -/
def cName (n : Text) : Text := n.takeWhile (· != '\x00')

/-- An entry of the zero initialised face list: `calloc`, mesh.cpp:315. -/
def Face3ds.zero : Face3ds := ⟨0, 0, 0, ⟨0, 0, 0⟩⟩

/-- The number of slots of the face list: mesh.cpp:303-315, `accumulate` of `degree - 2` in `int`. -/
def faceSlots (fs : List Face) : Int := fs.foldl (fun s f => s + (f.points.length : Int) - 2) 0

/-- The transform of mesh.cpp:317-325: slot `k` receives the FIRST triangle of face `k`; writing beyond the allocated
slots is undefined. `k` is the current slot. -/
noncomputable def fillSlots (co : List (V3 ℝ)) (slots : Int) : Nat → List Face → Out (List Face3ds)
  | _, [] => .ok []
  | k, f :: fs => do
    let ts ← Face.to3ds f co
    let t ← Out.idx ts 0
    if (k : Int) < slots then do
      let rest ← fillSlots co slots (k + 1) fs
      .ok (t :: rest)
    else .ub

/-- `Mesh::to_3ds`: mesh.cpp:281-330.
* mesh.cpp:283-286: `strncpy(buffer, name, 63)` into 64 uninitialised characters: with 63 characters or more there is
  no terminator and `lib3ds_mesh_new` reads on: undefined;
* mesh.cpp:287-301: the number of points is truncated to 16 bits, the list is allocated with that size and all points
  are written: undefined beyond 65535 points. -/
noncomputable def RMesh.to3ds (m : RMesh) : Out Mesh3ds :=
  if 63 ≤ (cName m.name).length then .ub
  else if 65536 ≤ m.points.length then .ub
  else do
    let ts ← fillSlots m.points (faceSlots m.faces) 0 m.faces
    .ok ⟨cName m.name, m.points, ts ++ List.replicate ((faceSlots m.faces).toNat - ts.length) Face3ds.zero⟩

/-- `std::numeric_limits<double>::epsilon()`. -/
noncomputable def dblEps : ℝ := 1 / 2 ^ 52

open Classical in
/-- The lambda of mesh.cpp:42-59: orientation from the stored normal; `points[...]` is unchecked. -/
noncomputable def faceOf3ds (ps : List (V3 ℝ)) (t : Face3ds) : Out Face := do
  let p0 ← Out.idx ps t.a
  let p1 ← Out.idx ps t.b
  let p2 ← Out.idx ps t.c
  .ok (Face.ofTriple t.a t.b t.c
    (decide (V3.determinant (V3.sub p1 p0) (V3.sub p2 p1) t.normal > dblEps)))

/-- `Mesh::Mesh(Lib3dsMesh*)`: mesh.cpp:25-63. -/
noncomputable def RMesh.of3ds (m : Mesh3ds) : Out RMesh := do
  let fs ← Out.mapM (faceOf3ds m.points) m.faces
  .ok ⟨m.name, m.points, fs⟩

end City
