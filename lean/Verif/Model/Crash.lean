import Verif.Model.Tools
/-
The writers of text files as sequences of calls to the operating system, so that a crash can be placed between any two of them:
/repo/src/lib/io/io_off.cpp:53-68, io_obj.cpp:66-81, io_scene.cpp:117-151, /repo/src/lib/algorithms/scene_algorithms.cpp:12-27.
A crash ends the process (an exception that is not caught, a signal, the end of the time granted to a job): what the system has received stays. How many characters
a flush sends at once is not modelled: they are sent one by one, so that all the places at which a text may end are considered. Loss of power, after which the
system itself may have lost or reordered its writes, is not modelled. GDAL and lib3ds are not modelled.
-/
namespace City

/-- A call. -/
inductive Sys where
  | mkdir (p : Path)
  | openOut (p : Path)
  | send (c : Char)
  | close

/-- The files, and the file that the one stream that is open at a time is writing. -/
structure Running where
  fs : Fs
  cur : Option Path

/-- The effect of a call. Opening for writing truncates: `std::ios::out` alone is the mode "w". A stream that could not be opened ignores all output. -/
def Sys.run : Sys → Running → Running
  | .mkdir p, w => ⟨w.fs.set p .dir, w.cur⟩
  | .openOut p, w => if w.fs.canWrite p then ⟨w.fs.set p (.file []), some p⟩ else ⟨w.fs, none⟩
  | .send c, w =>
    match w.cur with
    | none => w
    | some p =>
      match w.fs p with
      | some (.file t) => ⟨w.fs.set p (.file (t ++ [c])), w.cur⟩
      | _ => w
  | .close, w => ⟨w.fs, none⟩

/-- Calls one after the other. -/
def execute : List Sys → Running → Running
  | [], w => w
  | s :: l, w => execute l (s.run w)

/-- The files after a crash that follows the first `k` calls. -/
def crashAt (k : Nat) (l : List Sys) (fs : Fs) : Fs := (execute (l.take k) ⟨fs, none⟩).fs

/-- A stream that lives as long as one text is written to it. -/
def fileCalls (p : Path) (t : Text) : List Sys := .openOut p :: (t.map .send ++ [.close])

/-- `OFFHandler::write`: io_off.cpp:53-68. -/
def offCalls (modes : Modes) (p : Path) (m : Mesh) : List Sys := if canSave modes then fileCalls p (Off.write m) else []

/-- `WaveObjHandler::write`: io_obj.cpp:66-81; what is written before the undefined behaviour of an empty list is left out. -/
def objCalls (modes : Modes) (p : Path) (ms : List Mesh) : List Sys :=
  if canSave modes then
    match Obj.write ms with
    | .ok t => fileCalls p t
    | _ => []
  else []

/-- The loop over the buildings, then the terrain: io_scene.cpp:127-141: without the mode `write` the first handler throws. -/
def offAllCalls (modes : Modes) (p : Path) (ms : List Mesh) : List Sys :=
  if canSave modes then ms.flatMap fun m => fileCalls (joinPath p (m.name ++ ".off".toList)) (Off.write m) else []

/-- `SceneHandler::write`, OFF: io_scene.cpp:121-142. -/
def offSceneCalls {N : Type} (ops : NodeOps N) (modes : Modes) (p : Path) (s : Scene N) (fs : Fs) : List Sys :=
  match fs p with
  | none =>
    if fs p.dropLast = some .dir then .mkdir p :: offAllCalls modes p (s.buildings.map ops.back ++ [ops.back s.terrain]) else []
  | some .dir => offAllCalls modes p (s.buildings.map ops.back ++ [ops.back s.terrain])
  | some (.file _) => []

/-- The loop of `save_building_duals`: scene_algorithms.cpp:17-25: a building whose dual throws ends it, after what was written of it. -/
def dualAllCalls (dir : Path) : List (Text × Written) → List Sys
  | [] => []
  | b :: bs => fileCalls (joinPath dir (b.1 ++ ".txt".toList)) b.2.1 ++
    match b.2.2 with
    | .ok () => dualAllCalls dir bs
    | _ => []

/-- `save_building_duals`: scene_algorithms.cpp:12-27. -/
def dualCalls (root : Path) (bs : List (Text × Written)) (fs : Fs) : List Sys :=
  match fs (root ++ ["dual_graphs".toList]) with
  | none => if fs root = some .dir then .mkdir (root ++ ["dual_graphs".toList]) :: dualAllCalls (root ++ ["dual_graphs".toList]) bs else []
  | some .dir => dualAllCalls (root ++ ["dual_graphs".toList]) bs
  | some (.file _) => []

end City
