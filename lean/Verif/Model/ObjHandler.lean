import Verif.Model.Scene
/-
Model of the class `WaveObjHandler`, /repo/src/include/io/io_obj.h:14-37 and /repo/src/lib/io/io_obj.cpp, as an object with a state: the meshes it holds and the
files around it. A caller may go on after an exception; after undefined behaviour nothing is known.
-/
namespace City

/-- The member `meshes` of a `WaveObjHandler`, io_obj.h:34, and the file system. -/
structure ObjState where
  meshes : List Mesh
  fs : Fs

/-- The member functions that change the object or the files: `read`, `exclude_mesh`, `add_mesh`, `write`; io_obj.cpp:39-108. -/
inductive ObjOp where
  | read
  | exclude (name : Text)
  | add (m : Mesh)
  | write

/-- One call: what it returns (`exclude_mesh` returns a mesh, the others nothing) and the state it leaves. `read`: io_obj.cpp:39-64, the assignment to `meshes` comes
last, obj_stream.h:129; `exclude_mesh`: io_obj.cpp:83-104; `add_mesh`: io_obj.cpp:105-108; `write`: io_obj.cpp:66-81. -/
def ObjOp.step (rnd : ℚ → ℚ) (modes : Modes) (p : Path) : ObjOp → ObjState → Out (Option Mesh) × ObjState
  | .read, s =>
    match objRead rnd modes p s.fs with
    | .ok ms => (.ok none, ⟨ms, s.fs⟩)
    | .thrown e => (.thrown e, s)
    | .ub => (.ub, s)
  | .exclude n, s => (.ok (some (excludeMesh n s.meshes).2), ⟨(excludeMesh n s.meshes).1, s.fs⟩)
  | .add m, s => (.ok none, ⟨s.meshes ++ [m], s.fs⟩)
  | .write, s =>
    match objWrite modes p s.meshes s.fs with
    | (.ok (), fs') => (.ok none, ⟨s.meshes, fs'⟩)
    | (.thrown e, fs') => (.thrown e, ⟨s.meshes, fs'⟩)
    | (.ub, fs') => (.ub, ⟨s.meshes, fs'⟩)

/-- A sequence of calls: what each of them returned or threw, and the last state; `none` once the behaviour is undefined. -/
def ObjState.run (rnd : ℚ → ℚ) (modes : Modes) (p : Path) : List ObjOp → ObjState → Option (List (Out (Option Mesh)) × ObjState)
  | [], s => some ([], s)
  | o :: os, s =>
    match (o.step rnd modes p s).1 with
    | .ub => none
    | r => ((o.step rnd modes p s).2.run rnd modes p os).map fun x => (r :: x.1, x.2)

/-- `WaveObjHandler(path, scene, modes)`: io_obj.cpp:17-30: the buildings in order, then the terrain. -/
def ObjState.ofScene {N : Type} (ops : NodeOps N) (s : Scene N) (fs : Fs) : ObjState := ⟨s.buildings.map ops.back ++ [ops.back s.terrain], fs⟩

end City
