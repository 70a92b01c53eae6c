import Verif.Model.Fs
/-
Model of /repo/src/lib/io/io_3ds.cpp. The library lib3ds is represented by what the code sees of it: the list of meshes, the
forest of nodes (first child and next sibling, as in `Lib3dsNode`), loading (`load`, none for a null pointer) and saving.
`L` is the type of library meshes with their names `nm`; `conv` is `Mesh(Lib3dsMesh*)` (see Mesh3ds.lean), assumed to
succeed.
-/
namespace City

/-- A list of sibling nodes: `Lib3dsNode` with `name`, `type == LIB3DS_OBJECT_NODE`, `childs`, `next`. -/
inductive Forest where
  | nil
  | cons (name : Text) (isObject : Bool) (childs next : Forest)
  deriving DecidableEq

/-- `Lib3dsFile`, as far as used. -/
structure File3ds (L : Type) where
  meshes : List L
  nodes : Forest

namespace T3ds
variable {L : Type}

/-- `T3DSHandler::T3DSHandler`: io_3ds.cpp:12-43; the result is the pointer `file`. -/
def construct (load : Text → Option (File3ds L)) (modes : Modes) (p : Path) (fs : Fs) : Out (Option (File3ds L)) :=
  if canRead modes && canSave modes then .thrown .filesystemError
  else if !canRead modes && !canSave modes then .thrown .filesystemError
  else if canRead modes then
    match fs p with
    | some (.file t) => .ok (load t)
    | _ => .thrown .filesystemError
  else .ok (some ⟨[], .nil⟩)

/-- `T3DSHandler::get_meshes`: io_3ds.cpp:90-111. -/
def getMeshes (conv : L → Mesh) (modes : Modes) (file : Option (File3ds L)) : Out (List Mesh) :=
  if canRead modes then
    match file with
    | none => .ub
    | some f => .ok (f.meshes.map conv)
  else .thrown .filesystemError

/-- The loop `for(q = node->childs; q != nullptr; q = q->next)`: io_3ds.cpp:230-231: the nodes of a sibling list. -/
def siblings : Forest → List Text
  | .nil => []
  | .cons n _ _ nx => n :: siblings nx

/-- The loops of io_3ds.cpp:227-231: in each of the `level` passes the children of the only node of `p_nodes`, the first
top node, are appended; the assignment of io_3ds.cpp:232 is outside of the loop. A null `file->nodes` is dereferenced. -/
def levelPasses (top : Forest) : Nat → List Text → Out (List Text)
  | 0, childs => .ok childs
  | l + 1, childs =>
    match top with
    | .nil => .ub
    | .cons _ _ ch _ => levelPasses top l (childs ++ siblings ch)

/-- `T3DSHandler::get_nodes`: io_3ds.cpp:221-248 (the mode is not looked at; the `throw` cannot be reached). -/
def getNodes (file : Option (File3ds L)) (level : Nat) : Out (List Text) :=
  match file with
  | none => .ub
  | some f => levelPasses f.nodes level []

/-- `lib3ds_node_by_name`: the first node in depth first order with that name and type; its name and children. -/
def nodeByName (name : Text) : Forest → Option (Text × Forest)
  | .nil => none
  | .cons n o ch nx => if o && n == name then some (n, ch) else (nodeByName name ch).or (nodeByName name nx)

/-- `lib3ds_file_mesh_by_name`: the first mesh with that name. -/
def meshByName (nm : L → Text) (ms : List L) (name : Text) : Option L := ms.find? fun m => nm m == name

/-- The mesh pushed for a node of this name, if any: io_3ds.cpp:283-288; `name[0]` of an empty name is NUL. -/
def own (nm : L → Text) (f : File3ds L) (types : List Char) (name : Text) : List (Char × L) :=
  match meshByName nm f.meshes name with
  | none => []
  | some m => if (nm m).headD '\x00' ∈ types then [((nm m).headD '\x00', m)] else []

/-- `T3DSHandler::node_meshes(node, ...)` on a list of siblings: io_3ds.cpp:276-289: children first, then the node; the
pushes in their order. -/
def collect (nm : L → Text) (f : File3ds L) (types : List Char) : Forest → List (Char × L)
  | .nil => []
  | .cons n _ ch nx => (collect nm f types ch ++ own nm f types n) ++ collect nm f types nx

/-- `std::map<char, std::deque<Mesh>>` made by the pushes: sorted keys, only those pushed. -/
def groupTypes (types : List Char) (xs : List (Char × Mesh)) : List (Char × List Mesh) :=
  (types.map fun c => (c, (xs.filter fun x => x.1 == c).map (·.2))).filter fun g => !g.2.isEmpty

/-- `T3DSHandler::node_meshes_by_type`: io_3ds.cpp:175-192: an unknown name gives a null node, which is dereferenced.
`types` is a `std::set`: sorted, without repetition. -/
def nodeMeshesByType (nm : L → Text) (conv : L → Mesh) (modes : Modes) (file : Option (File3ds L)) (name : Text)
    (types : List Char) : Out (List (Char × List Mesh)) :=
  if canRead modes then
    match file with
    | none => .ub
    | some f =>
      match nodeByName name f.nodes with
      | none => .ub
      | some (n, ch) =>
        .ok (groupTypes types ((collect nm f types ch ++ own nm f types n).map fun x => (x.1, conv x.2)))
  else .thrown .filesystemError

/-- `T3DSHandler::node_meshes(name, types)`: io_3ds.cpp:156-174: the vector is created with its final size, and the meshes
are appended after that. -/
def nodeMeshes (nm : L → Text) (conv : L → Mesh) (modes : Modes) (file : Option (File3ds L)) (name : Text)
    (types : List Char) : Out (List Mesh) := do
  let g ← nodeMeshesByType nm conv modes file name types
  .ok (List.replicate (g.foldl (fun t x => t + x.2.length) 0) Mesh.empty ++ g.flatMap (·.2))

/-- `T3DSHandler::mesh_by_type`: io_3ds.cpp:206-219; `mesh_by_type[c] = ...` move-assigns the sum. -/
def meshByType (nm : L → Text) (conv : L → Mesh) (modes : Modes) (file : Option (File3ds L)) (name : Text)
    (types : List Char) : Out (List (Char × Mesh)) := do
  let g ← nodeMeshesByType nm conv modes file name types
  .ok (g.map fun x => (x.1, Mesh.sumFrom Mesh.empty x.2))

/-- `T3DSHandler::mesh`: io_3ds.cpp:193-205. -/
def mesh (nm : L → Text) (conv : L → Mesh) (modes : Modes) (file : Option (File3ds L)) (name : Text)
    (types : List Char) : Out Mesh := do
  let g ← meshByType nm conv modes file name types
  .ok ((Mesh.sumFrom Mesh.empty (g.map (·.2))).setName name)

/-- `T3DSHandler::level_meshes`: io_3ds.cpp:113-126. -/
def levelMeshes (nm : L → Text) (conv : L → Mesh) (modes : Modes) (file : Option (File3ds L)) (level : Nat)
    (types : List Char) : Out (List Mesh) := do
  let ns ← getNodes file level
  Out.mapM (fun n => mesh nm conv modes file n types) ns

/-- `T3DSHandler::raw_level_meshes`: io_3ds.cpp:138-151. -/
def rawLevelMeshes (nm : L → Text) (conv : L → Mesh) (modes : Modes) (file : Option (File3ds L)) (level : Nat)
    (types : List Char) : Out (List (List Mesh)) := do
  let ns ← getNodes file level
  Out.mapM (fun n => nodeMeshes nm conv modes file n types) ns

/-- `T3DSHandler::level_terrain`: io_3ds.cpp:127-137. -/
def levelTerrain (nm : L → Text) (conv : L → Mesh) (modes : Modes) (file : Option (File3ds L)) (level : Nat) : Out Mesh := do
  let ms ← levelMeshes nm conv modes file level ['M']
  .ok ((Mesh.sumFrom Mesh.empty ms).setName "terrain".toList)

/-- `T3DSHandler::write_meshes`: io_3ds.cpp:250-274: `meshes[0]` of an empty vector is undefined; `enc` is `to_3ds` on
each mesh followed by `lib3ds_file_save`, which fails silently. -/
def writeMeshes (enc : List Mesh → Out Text) (modes : Modes) (p : Path) (ms : List Mesh) (fs : Fs) : Out Unit × Fs :=
  if canSave modes then
    if ms = [] then (.ub, fs)
    else match enc ms with
      | .ok t => (.ok (), fs.put p t)
      | .thrown e => (.thrown e, fs)
      | .ub => (.ub, fs)
  else (.thrown .filesystemError, fs)

end T3ds
end City
