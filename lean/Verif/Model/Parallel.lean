import Verif.Model.Crash
/-
Several processes of the tools that write at the same time, in any order of their steps: `SceneHandler::write` for OFF (/repo/src/lib/io/io_scene.cpp:117-142) and
`save_building_duals` (/repo/src/lib/algorithms/scene_algorithms.cpp:12-27). A step is one call to the operating system, and is atomic. Every stream has its own
position, at which it writes: what another process has done to the file in between is not noticed. As in Crash.lean, characters are sent one by one, so that all the
ways in which a text can be divided into blocks are considered.
-/
namespace City

/-- The files a process still has to write, with their texts. -/
abbrev Files := List (Path × Text)

/-- What a process has reached. -/
inductive Work where
  /-- Before `exists(filepath)`: io_scene.cpp:122. -/
  | fresh (d : Path) (fl : Files)
  /-- Before `create_directory`: io_scene.cpp:123, scene_algorithms.cpp:16. -/
  | absent (d : Path) (fl : Files)
  /-- Before `is_directory`: io_scene.cpp:125. -/
  | present (d : Path) (fl : Files)
  /-- Between two files; with no file left, the end. -/
  | idle (fl : Files)
  /-- A stream is open, at a position, with the rest of its text to be sent; `none`: it could not be opened. -/
  | writing (q : Option Path) (off : Nat) (rest : Text) (fl : Files)
  /-- An exception has ended it. -/
  | failed
  deriving DecidableEq

/-- A character written at a position: a gap before it is filled with zeros. -/
def writeAt (u : Text) (off : Nat) (c : Char) : Text :=
  if off < u.length then u.set off c else u ++ List.replicate (off - u.length) (Char.ofNat 0) ++ [c]

/-- One step of a process. `create_directory` of a directory that exists does nothing, and throws if it is a file or cannot be made. -/
def Work.step (fs : Fs) : Work → Work × Fs
  | .fresh d fl => (if (fs d).isSome then .present d fl else .absent d fl, fs)
  | .absent d fl =>
    match fs d with
    | some .dir => (.idle fl, fs)
    | some (.file _) => (.failed, fs)
    | none => if fs d.dropLast = some .dir then (.idle fl, fs.set d .dir) else (.failed, fs)
  | .present d fl => (if fs d = some .dir then .idle fl else .failed, fs)
  | .idle [] => (.idle [], fs)
  | .idle (f :: fl) => if fs.canWrite f.1 then (.writing (some f.1) 0 f.2 fl, fs.set f.1 (.file [])) else (.writing none 0 f.2 fl, fs)
  | .writing q off (c :: r) fl => (.writing q (off + 1) r fl,
    match q with
    | none => fs
    | some p =>
      match fs p with
      | some (.file u) => fs.set p (.file (writeAt u off c))
      | _ => fs)
  | .writing _ _ [] fl => (.idle fl, fs)
  | .failed => (.failed, fs)

/-- All the processes and the files. -/
structure System where
  works : List Work
  fs : Fs

/-- A step of the process of the given number, if there is one. -/
def System.step (s : System) (i : Nat) : System :=
  match s.works[i]? with
  | none => s
  | some w => ⟨s.works.set i (w.step s.fs).1, (w.step s.fs).2⟩

/-- A schedule: the numbers of the processes, in the order in which they do their steps. -/
def System.run : System → List Nat → System
  | s, [] => s
  | s, i :: l => (s.step i).run l

/-- The process that runs `SceneHandler::write` for OFF, opened for writing: io_scene.cpp:121-142. -/
def sceneWork {N : Type} (ops : NodeOps N) (p : Path) (s : Scene N) : Work :=
  .fresh p ((s.buildings.map ops.back ++ [ops.back s.terrain]).map fun m => (joinPath p (m.name ++ ".off".toList), Off.write m))

/-- The process that runs `save_building_duals`, of buildings that have a dual: scene_algorithms.cpp:12-27. -/
def dualWork (root : Path) (bs : List (Text × Text)) : Work :=
  .absent (root ++ ["dual_graphs".toList]) (bs.map fun b => (joinPath (root ++ ["dual_graphs".toList]) (b.1 ++ ".txt".toList), b.2))

end City
