import Verif.Model.Scene
import Verif.Spec.Obj
/-! Specification vocabulary for file handlers. -/
namespace City.Spec
open City

/-- The handler was opened for reading. -/
def OpenedRead (m : Modes) : Prop := m "read".toList = some true

/-- The handler was opened for writing. -/
def OpenedWrite (m : Modes) : Prop := m "write".toList = some true

/-- The operation throws, the same exception whatever the state of the file system: no file was looked at. -/
def ThrowsBlind {α : Type} (run : Fs → Out α) : Prop := ∃ e, ∀ fs, run fs = .thrown e

/-- The operation throws and leaves the file system as it was. -/
def RefusesWrite (run : Fs → Out Unit × Fs) : Prop := ∀ fs, ∃ e, run fs = (.thrown e, fs)

/-- `names` is an enumeration of the entries of the directory `p`, in any order. -/
def Listing (fs : Fs) (p : Path) (names : List Text) : Prop :=
  names.Nodup ∧ ∀ n, n ∈ names ↔ fs (p ++ [n]) ≠ none

/-- A building name that is a file name: not empty, no slash, no line break. -/
def FileNameOk (n : Text) : Prop := n ≠ [] ∧ '/' ∉ n ∧ '\n' ∉ n

/-- The nodes at depth `d` of a forest, from left to right. -/
def atDepth : Nat → Forest → List Text
  | _, .nil => []
  | 0, .cons n _ _ nx => n :: atDepth 0 nx
  | d + 1, .cons _ _ ch nx => atDepth d ch ++ atDepth (d + 1) nx

/-- The names of all the nodes of a forest, children before their parent. -/
def postOrder : Forest → List Text
  | .nil => []
  | .cons n _ ch nx => postOrder ch ++ n :: postOrder nx

/-- The scene in memory: a scene with buildings and terrain as meshes `bs` and `t`, ready to be written as a directory of OFF
files: distinct building names that are file names and not "terrain". -/
structure WritableScene (bs : List Mesh) (t : Mesh) : Prop where
  holdable : ∀ m ∈ t :: bs, Holdable m
  names : ∀ m ∈ t :: bs, FileNameOk m.name
  distinct : (bs.map (·.name)).Nodup
  notTerrain : "terrain".toList ∉ bs.map (·.name)

/-- The directory: existing and empty, or to be created in an existing one. -/
def FreshDirectory (fs : Fs) (p : Path) : Prop :=
  (∀ n, fs (p ++ [n]) = none) ∧ (fs p = some .dir ∨ (fs p = none ∧ fs p.dropLast = some .dir))

/-- `m'` is what a reader sees of `m` after printing with six digits: same name and faces, printed coordinates, the bounding
box of the points. -/
def MeshReadBack (rnd : ℚ → ℚ) (m m' : Mesh) : Prop :=
  m'.name = m.name ∧ m'.faces = m.faces ∧ List.Forall₂ (ReadBack rnd) m.points m'.points ∧ m'.bbox = Mesh.computeBbox m'.points

/-- The meshes matching the names of some nodes, in order: a node matches when the file has a mesh of its name, the first one
being taken, and that name begins with one of the letters. -/
def matching {L : Type} (nm : L → Text) (meshes : List L) (types : List Char) (nodes : List Text) : List L :=
  nodes.filterMap fun n =>
    if n.headD '\x00' ∈ types then meshes.find? fun m => nm m == n else none

/-- The children of an element with a given name, in document order. -/
def named (cs : List Elem) (tag : Text) : List Elem := cs.filter fun e => e.tag == tag

/-- The document declares one element of this name among these: the first one counts. -/
def Declares (cs : List Elem) (tag : Text) (e : Elem) : Prop := ∃ rest, named cs tag = e :: rest

end City.Spec
