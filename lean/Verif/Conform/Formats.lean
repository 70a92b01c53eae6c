import Verif.Conform.Files
import Verif.Model.Handlers
import Verif.Model.MeshPrint
import Verif.Model.Float
/-!
The unit tests of the project on OFF and OBJ files (test_shadow_mesh.cpp:91-150, test_io_off.cpp, test_io_obj.cpp), run on the model by the kernel, with
numbers rounded to doubles as they are read. The tests on larger files are run by `Verif/Conform/Run.lean`.
-/
namespace City.Conform
open City

/-- The files of the tests, by their name in the directory of the resources. -/
def resources : Fs
  | [n] => ([("F29051.off", f29051), ("F29054.off", f29054), ("F29057.off", f29057), ("F29060.off", f29060), ("F29063.off", f29063), ("F29066.off", f29066),
      ("F29069.off", f29069), ("T11107.off", t11107), ("T11108.off", t11108), ("building_sum_mesh.off", buildingSum), ("minimal.obj", minimalObj),
      ("two.obj", twoObj), ("two_separated.obj", twoSeparated)].find? fun x => x.1.toList == n).map fun x => .file x.2
  | [] => some .dir
  | _ => none

/-- `{{"read", true}}`. -/
def reading : Modes := fun k => if k = "read".toList then some true else none
/-- `{{"write", true}}`. -/
def writing : Modes := fun k => if k = "write".toList then some true else none
/-- `{{"write", false}}`. -/
def notWriting : Modes := fun k => if k = "write".toList then some false else none
/-- `{{}}`: a map with one empty word. -/
def noMode : Modes := fun k => if k = [] then some false else none

/-- An OFF file of the resources. -/
def off (n : String) : Out Mesh := offRead fl true reading [n.toList] resources

/-- What the tests show: each mesh followed by a line break, then its lines, each followed by a line break. -/
def shownMeshes (ms : List Mesh) : Text := (readlines (ms.flatMap fun m => m.print false ++ ['\n'])).flatMap fun l => l ++ ['\n']

/-- The outcome of a test is what is required. -/
def Passes {α : Type} (x : Out α) (p : α → Bool) : Prop := (match x with | .ok a => p a | _ => false) = true

instance {α : Type} (x : Out α) (p : α → Bool) : Decidable (Passes x p) := by unfold Passes; infer_instance

/-- The run throws. -/
def Throws {α : Type} (x : Out α) : Prop := (match x with | .thrown _ => true | _ => false) = true

instance {α : Type} (x : Out α) : Decidable (Throws x) := by unfold Throws; infer_instance

/-- test_shadow_mesh.cpp:95-137: the sum of nine meshes, from left to right. -/
def stitched : Out Mesh := do
  let a ← off "F29051.off"
  let b ← off "F29054.off"
  let c ← off "F29057.off"
  let d ← off "F29060.off"
  let e ← off "F29063.off"
  let f ← off "F29066.off"
  let g ← off "F29069.off"
  let h ← off "T11107.off"
  let i ← off "T11108.off"
  .ok ((((((((a.add b).add c).add d).add e).add f).add g).add h).add i)

-- test_io_off.cpp:41-49, 60-80, with a small file
example : Throws (offRead fl true noMode ["F29051.off".toList] resources) ∧ Throws (offRead fl true reading ["absent.off".toList] resources) ∧
    Throws (offRead fl true noMode ["absent.off".toList] resources) := by decide +kernel
-- test_io_off.cpp:90-114, with a small file: what is written is read as it was
example : Passes (do let m ← off "T11107.off"; offRead fl true reading ["x.off".toList] (offWrite writing ["x.off".toList] m resources).2)
    (fun m => m.print false == ("#Name: x".toList ++ t11107.dropWhile (· != '\n'))) := by decide +kernel
-- test_io_off.cpp:116-124
example : Passes (off "T11107.off") (fun m => match (offWrite notWriting ["./hammerhead.off".toList] m resources).1 with | .thrown _ => true | _ => false) := by
  decide +kernel
-- test_io_obj.cpp:52-64, 67-82
example : Throws (objRead fl noMode ["minimal.obj".toList] resources) ∧ Throws (objRead fl reading ["absent.obj".toList] resources) := by decide +kernel
-- test_io_obj.cpp:127-135
example : Passes (objRead fl reading ["minimal.obj".toList] resources)
    (fun ms => match (objWrite notWriting ["./hammerhead.off".toList] ms resources).1 with | .thrown _ => true | _ => false) := by decide +kernel
end City.Conform
