import Verif.Model.Obj
/-
File system and `FileHandler`: /repo/src/lib/io/io.cpp, /repo/src/include/io/io.h:29-36.
A path is the list of its components. Entries are directories and regular files with their content. Permissions, links,
full disks, name length limits and concurrent changes are not modelled.
-/
namespace City

/-- The components of a path. -/
abbrev Path := List Text

/-- A regular file or a directory. -/
inductive Entry where
  | file (t : Text)
  | dir
  deriving DecidableEq

/-- The state of the file system. -/
abbrev Fs := Path → Option Entry

namespace Fs

/-- Replacement of one entry. -/
def set (fs : Fs) (p : Path) (e : Entry) : Fs := fun q => if q = p then some e else fs q

/-- `std::fstream(path, std::ios::out)`: opening for writing succeeds for existing files and for new names in an existing
directory. -/
def canWrite (fs : Fs) (p : Path) : Bool :=
  match fs p with
  | some (.file _) => true
  | some .dir => false
  | none => p ≠ [] ∧ fs p.dropLast = some .dir

/-- Opening with truncation and writing a text; a stream that could not be opened ignores all output, silently. -/
def put (fs : Fs) (p : Path) (t : Text) : Fs := if fs.canWrite p then fs.set p (.file t) else fs

end Fs

/-- `std::map<std::string, bool>`: the modes of a handler, io.h:35. -/
abbrev Modes := Text → Option Bool

/-- `modes["read"]`: `operator[]` inserts `false` for a missing key. -/
def canRead (m : Modes) : Bool := (m "read".toList).getD false

/-- `modes["write"]`. -/
def canSave (m : Modes) : Bool := (m "write".toList).getD false

/-- Position of the last dot of a file name: the part before it, and the part from it on (boost::filesystem, `stem` and
`extension`); without dot the extension is empty. -/
def splitExt (n : Text) : Text × Text :=
  let r := n.reverse
  match r.span (· != '.') with
  | (_, []) => (n, [])
  | (e, _ :: s) => (s.reverse, '.' :: e.reverse)

/-- `path::filename`: the last component. -/
def fileName (p : Path) : Text := p.getLastD []

/-- `path::stem`. -/
def stem (p : Path) : Text := (splitExt (fileName p)).1

/-- `path::extension`. -/
def extension (p : Path) : Text := (splitExt (fileName p)).2

/-- Splitting a string at the slashes. -/
def splitSlash : Text → List Text
  | [] => [[]]
  | c :: t =>
    if c = '/' then [] :: splitSlash t
    else match splitSlash t with
      | [] => [[c]]
      | w :: ws => (c :: w) :: ws

/-- `path / string`. -/
def joinPath (p : Path) (n : Text) : Path := p ++ splitSlash n

/-- Lower case of the ASCII letters, for `boost::iequals` in the classic locale. -/
def lower (c : Char) : Char := if 'A' ≤ c ∧ c ≤ 'Z' then Char.ofNat (c.toNat + 32) else c

/-- `boost::iequals`. -/
def iequals (a b : Text) : Bool := a.map lower == b.map lower

end City
