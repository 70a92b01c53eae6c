import Verif.Model.Text
import Verif.Model.Face
/-
Model of /repo/src/include/io/Off_stream/off_stream.h.
A stream is the text it contains; reading starts at its beginning. Memory is unlimited up to `max_size()` of the
vectors (length_error above it). `rnd` is the conversion of decimals to doubles.
-/
namespace City

/-- Two arguments of one call: the order of evaluation is not specified by C++; `leftFirst` selects it. -/
def Out.both {α β : Type} (leftFirst : Bool) (a : Out α) (b : Out β) : Out (α × β) :=
  if leftFirst then a >>= fun x => b >>= fun y => .ok (x, y)
  else b >>= fun y => a >>= fun x => .ok (x, y)

namespace Off

/-- `operator <<(ostream, Point)`: point.cpp:112-116. -/
def pointText (p : V3 ℚ) : Text := dblText p.x ++ ' ' :: (dblText p.y ++ ' ' :: dblText p.z)

/-- Indexes separated by one blank, as printed by the loop of face.cpp:241-247. -/
def sepText : List Nat → Text
  | [] => []
  | [n] => natText n
  | n :: m :: ns => natText n ++ ' ' :: sepText (m :: ns)

/-- `operator <<(ostream, Face)`: face.cpp:238-249. -/
def faceText (f : Face) : Text := natText f.points.length ++ ' ' :: sepText f.points

/-- `print_header`: off_stream.h:132-137, the three lines. -/
def headerLines (m : Mesh) : List Text :=
  [['#', ' ', 'M', 'e', 's', 'h', ':', ' '] ++ m.name, ['O', 'F', 'F'],
    natText m.points.length ++ ' ' :: (natText m.faces.length ++ [' ', '0'])]

/-- `Off_stream::operator <<(Mesh)`: off_stream.h:85-92, 132-159. -/
def write (m : Mesh) : Text :=
  (headerLines m ++ m.points.map pointText ++ m.faces.map faceText).flatMap (· ++ ['\n'])

/-- The predicate of `remove_if`, off_stream.h:171-174: `line.at(0) == '#' || line.empty()`; `at(0)` throws on an
empty line before `empty()` is asked. -/
def isComment : Text → Out Bool
  | [] => .thrown .outOfRange
  | c :: _ => .ok (c == '#')

/-- `parse`: off_stream.h:161-180, after the lines are read. -/
def parseLines : List Text → Out (List Text)
  | [] => .ok []
  | l :: ls => do
    let b ← isComment l
    let r ← parseLines ls
    .ok (if b then r else l :: r)

/-- `read_header`: off_stream.h:181-198: three zeros are overwritten by all the integers of the line: more than three are
written past the end. The size check is done modulo 2^64. -/
def readHeader (lines : List Text) (line1 : Text) : Out (Nat × Nat) :=
  let ns := scanNats line1
  if 3 < ns.length then .ub
  else
    let s0 := ns.getD 0 0
    let s1 := ns.getD 1 0
    let s2 := ns.getD 2 0
    if s2 ≠ 0 then .thrown .rangeError
    else if lines.length ≠ (2 + s0 + s1) % szMod then .thrown .rangeError
    else .ok (s0, s1)

/-- The copy of `n` lines from position `lo`, off_stream.h:201-206 and 231-236: `vector<string>(n)` throws
length_error above its maximal size; iterators beyond the end are undefined. -/
def slice (lines : List Text) (lo n : Nat) : Out (List Text) :=
  if 2 ^ 58 ≤ n then .thrown .lengthError
  else if lo + n ≤ lines.length then .ok ((lines.drop lo).take n) else .ub

/-- The lambda of off_stream.h:213-224: `coordinates[0..2]` are unchecked; further numbers are ignored. -/
def parsePoint (rnd : ℚ → ℚ) (l : Text) : Out (V3 ℚ) :=
  match scanDecs rnd l with
  | a :: b :: c :: _ => .ok ⟨a, b, c⟩
  | _ => .ub

/-- `read_points`: off_stream.h:199-228. -/
def readPoints (rnd : ℚ → ℚ) (lines : List Text) (n : Nat) : Out (List (V3 ℚ)) := do
  let b ← slice lines 2 n
  Out.mapM (parsePoint rnd) b

/-- The vector `indexes` of off_stream.h:246-260: `n` zeros overwritten by the given integers. -/
def fillIndexes (n : Nat) (ns : List Nat) : Out Face :=
  if 2 ^ 60 ≤ n then .thrown .lengthError
  else if n < ns.length then .ub
  else Face.mk? (ns ++ List.replicate (n - ns.length) 0)

/-- The lambda of off_stream.h:244-261. -/
def parseFace (l : Text) : Out Face :=
  match scanNat l with
  | .got n rest => fillIndexes n (scanNats rest)
  | .fail stored => fillIndexes (stored.getD 0) []

/-- `read_faces`: off_stream.h:229-265. -/
def readFaces (lines : List Text) (shift n : Nat) : Out (List Face) := do
  let b ← slice lines shift n
  Out.mapM parseFace b

/-- `Off_stream::operator >>(Mesh)`: off_stream.h:98-126. `leftFirst`: order of evaluation of the two arguments of the
constructor at off_stream.h:113-123. -/
def read (rnd : ℚ → ℚ) (leftFirst : Bool) (t : Text) : Out Mesh := do
  let lines ← parseLines (readlines t)
  match lines with
  | [] => .thrown .outOfRange
  | l0 :: ls =>
    if l0 ≠ ['O', 'F', 'F'] then .thrown .failure
    else match ls with
      | [] => .thrown .outOfRange
      | l1 :: _ => do
        let s ← readHeader lines l1
        let r ← Out.both leftFirst (readPoints rnd lines s.1) (readFaces lines ((2 + s.1) % szMod) s.2)
        .ok (Mesh.makeAnon r.1 r.2)

end Off
end City
