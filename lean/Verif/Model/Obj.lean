import Verif.Model.Off
import Mathlib.Data.List.Lex
import Mathlib.Data.Char
/-
Model of /repo/src/include/io/Obj_stream/obj_stream.h and /repo/src/lib/algorithms/io_algorithms.cpp.
Same conventions as Off.lean. The order of `std::string` keys is the lexicographic order of the characters.
-/
namespace City
namespace Obj

/-! ### Writing -/

/-- `print_mesh_points`: obj_stream.h:144-154, one line. -/
def vLine (p : V3 ℚ) : Text := 'v' :: ' ' :: Off.pointText p

/-- One facet line: obj_stream.h:170-173 (each index is followed by a blank). -/
def fLine (shift : Nat) (f : Face) : Text :=
  'f' :: ' ' :: f.points.flatMap fun i => natText (i + shift + 1) ++ [' ']

/-- `std::partial_sum`: obj_stream.h:103-107. -/
def partialSum : Nat → List Nat → List Nat
  | _, [] => []
  | a, n :: ns => (a + n) :: partialSum (a + n) ns

/-- The vector `shifts`: obj_stream.h:93-107: sizes of all meshes but the last, preceded by 0, then summed. -/
def shifts (ms : List Mesh) : List Nat := partialSum 0 (0 :: ms.dropLast.map fun m => m.points.length)

/-- `print_mesh_faces`: obj_stream.h:160-176, the lines. -/
def objLines (m : Mesh) (shift : Nat) : List Text := [] :: ('o' :: ' ' :: m.name) :: m.faces.map (fLine shift)

/-- The lines written by `print_points` and `print_faces`: obj_stream.h:139-159. -/
def writeLines (ms : List Mesh) : List Text :=
  (ms.flatMap fun m => m.points.map vLine) ++ (ms.zip (shifts ms)).flatMap fun p => objLines p.1 p.2

/-- `Obj_stream::operator <<`: obj_stream.h:91-113; `std::prev(std::end(meshes))` of an empty vector is undefined. -/
def write (ms : List Mesh) : Out Text :=
  if ms = [] then .ub else .ok ((writeLines ms).flatMap (· ++ ['\n']))

/-! ### Reading -/

/-- `parse`: obj_stream.h:178-197: blank lines and comments are dropped. -/
def parse (t : Text) : List Text := (readlines t).filter fun l => !(l.isEmpty || l.head? == some '#')

/-- `str2pt`: io_algorithms.cpp:27-46: with four numbers `coordinates[4]` is read, beyond the end. -/
def str2pt : List ℚ → Out (V3 ℚ)
  | [a, b, c] => .ok ⟨a, b, c⟩
  | [_, _, _, _] => .ub
  | _ => .thrown .failure

/-- `line2pt`: io_algorithms.cpp:12-26. -/
def line2pt (rnd : ℚ → ℚ) (l : Text) : Out (V3 ℚ) := str2pt (scanDecs rnd l)

/-- `cursor->front() == 'v'`: obj_stream.h:209. -/
def isV (l : Text) : Bool := l.head? == some 'v'

/-- `cursor->front() == 'o'`: obj_stream.h:301. -/
def isO (l : Text) : Bool := l.head? == some 'o'

/-- `read_points`: obj_stream.h:199-215: the origin stands at index 0, then the leading 'v' lines. -/
def readPoints (rnd : ℚ → ℚ) (lines : List Text) : Out (List (V3 ℚ)) := do
  let ps ← Out.mapM (fun l => line2pt rnd l.tail) (lines.takeWhile isV)
  .ok (⟨0, 0, 0⟩ :: ps)

/-- `stream >> std::string`: the first token, empty if there is none. -/
def firstToken (t : Text) : Text := (skipWs t).takeWhile fun c => !isSpace c

/-- The loop of `object_names`: obj_stream.h:299-317: names and first facet positions; `k` is the position of the
cursor. -/
def objMarks : Nat → List Text → List (Text × Nat)
  | _, [] => []
  | k, l :: ls =>
    if isO l then (firstToken l.tail, k + 1) :: objMarks (k + 1) ls else objMarks (k + 1) ls

/-- The sizes: obj_stream.h:318-333 (`adjacent_difference` of the positions, from the end, after a last position
`lines.size() + 1`): name, position, number of facet lines. -/
def withSizes (total : Nat) : List (Text × Nat) → List (Text × Nat × Nat)
  | [] => []
  | [(n, i)] => [(n, i, total + 1 - i - 1)]
  | (n, i) :: (n', i') :: r => (n, i, i' - i - 1) :: withSizes total ((n', i') :: r)

/-- `std::map::emplace`: keeps the entries sorted by key; an existing key is kept. -/
def emplace {α : Type} (x : Text × α) : List (Text × α) → List (Text × α)
  | [] => [x]
  | y :: ys => if x.1 < y.1 then x :: y :: ys else if x.1 = y.1 then y :: ys else y :: emplace x ys

/-- The loop of obj_stream.h:335-344. -/
def emplaceAll {α : Type} (xs : List (Text × α)) : List (Text × α) := xs.foldl (fun m x => emplace x m) []

/-- Conversion `double` to `std::size_t` done by `std::back_inserter(indexes)`, obj_stream.h:265-271: truncation;
undefined when the truncated value is not representable. -/
def toIndex (q : ℚ) : Out Nat := if q ≤ -1 ∨ (2 : ℚ) ^ 64 ≤ q then .ub else .ok ⌊q⌋₊

/-- The `index_map` of an object: old indexes in the order of their new indexes; the loop of obj_stream.h:273-276. -/
def addSeen (seen : List Nat) (is : List Nat) : List Nat :=
  is.foldl (fun s i => if i ∈ s then s else s ++ [i]) seen

/-- `read_facet`: obj_stream.h:261-289. -/
def readFacet (rnd : ℚ → ℚ) (line : Text) (seen : List Nat) : Out (Face × List Nat) := do
  let is ← Out.mapM toIndex (scanDecs rnd line)
  let f ← Face.mk? (is.map fun i => (addSeen seen is).idxOf i)
  .ok (f, addSeen seen is)

/-- `read_facets`: obj_stream.h:244-259: the first character of each line is dropped, whatever it is. -/
def readFacets (rnd : ℚ → ℚ) : List Text → List Nat → Out (List Face × List Nat)
  | [], seen => .ok ([], seen)
  | l :: ls, seen => do
    let r ← readFacet rnd l.tail seen
    let rs ← readFacets rnd ls r.2
    .ok (r.1 :: rs.1, rs.2)

/-- `select`: io_algorithms.h:11-20: `container[old]` is unchecked. -/
def select (ps : List (V3 ℚ)) (seen : List Nat) : Out (List (V3 ℚ)) := Out.mapM (fun old => Out.idx ps old) seen

/-- `read_object`: obj_stream.h:236-242. -/
def readObject (rnd : ℚ → ℚ) (lines : List Text) (ps : List (V3 ℚ)) (o : Text × Nat × Nat) : Out Mesh := do
  let r ← readFacets rnd ((lines.drop o.2.1).take o.2.2) []
  let qs ← select ps r.2
  .ok (Mesh.make o.1 qs r.1)

/-- The objects of the file, by name: `object_names`, obj_stream.h:291-347. -/
def objects (lines : List Text) : List (Text × Nat × Nat) :=
  let k := (lines.takeWhile isV).length
  emplaceAll (withSizes lines.length (objMarks k (lines.drop k)))

/-- `Obj_stream::operator >>`: obj_stream.h:119-133, with `read_objects`, obj_stream.h:217-234. -/
def read (rnd : ℚ → ℚ) (t : Text) : Out (List Mesh) :=
  let lines := parse t
  if lines = [] then .thrown .outOfRange
  else do
    let ps ← readPoints rnd lines
    Out.mapM (readObject rnd lines ps) (objects lines)

end Obj
end City
