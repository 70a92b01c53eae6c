import Verif.Model.Vec
/-
Model of /repo/src/lib/shadow/face.cpp.
`std::size_t` indexes are unbounded naturals (no wrap-around in `offset`).
-/
namespace City

/-- `shadow::Face`: face.h, the vector `points` of vertex indexes. -/
@[ext] structure Face where
  points : List Nat
  deriving DecidableEq, Repr

namespace Face

/-- `Face::Face(initializer_list)` / `Face::Face(vector)`: face.cpp:23-34. -/
def mk? (l : List Nat) : Out Face :=
  if l.length < 3 then .thrown .logicError else .ok ⟨l⟩

/-- `Face::Face(first, second, third, orientation)`: face.cpp:46-52. -/
def ofTriple (a b c : Nat) (orientation : Bool) : Face :=
  if orientation then ⟨[a, b, c]⟩ else ⟨[a, c, b]⟩

/-- `Face::degree`: face.cpp:80-83. -/
def degree (f : Face) : Nat := f.points.length

/-- `Face::invert_orientation`: face.cpp:114-117 (`std::reverse(next(begin), end)`); `std::next(begin)` of an
empty vector is undefined. -/
def invert (f : Face) : Out Face :=
  match f.points with
  | [] => .ub
  | a :: t => .ok ⟨a :: t.reverse⟩

/-- `Face::rotate(long n)`: face.cpp:122-125 (`std::rotate(begin, next(begin, n), end)`): `[begin, end]` must
contain `begin + n`. -/
def rotateBy (f : Face) (n : Int) : Out Face :=
  if 0 ≤ n ∧ n ≤ f.points.length then
    .ok ⟨f.points.drop n.toNat ++ f.points.take n.toNat⟩
  else .ub

/-- `Face::rotate()`: face.cpp:118-121. -/
def rotate (f : Face) : Out Face := rotateBy f 1

/-- `Face::overide`: face.cpp:131-138 with `Face::find` (face.cpp:127-130): assigns the first occurrence. -/
def overideList (i j : Nat) : List Nat → List Nat × Bool
  | [] => ([], false)
  | a :: t => if a = i then (j :: t, true) else
      let r := overideList i j t
      (a :: r.1, r.2)

/-- `Face::overide`: face.cpp:131-138; returns the new face and the boolean result. -/
def overide (f : Face) (i j : Nat) : Face × Bool :=
  let r := overideList i j f.points
  (⟨r.1⟩, r.2)

/-- `Face::offset`: face.cpp:140-153. -/
def offset (f : Face) (d : Nat) : Face := ⟨f.points.map (· + d)⟩

/-- `std::find` then comparison of the rotated copy; part of `operator==`, face.cpp:257-276. -/
def eqFrom (a : Nat) (lhs rhs : List Nat) : Bool :=
  let k := rhs.findIdx (· == a)
  if k < rhs.length then decide (lhs = rhs.drop k ++ rhs.take k) else false

/-- `operator==(Face, Face)`: face.cpp:252-279. `lhs.points.at(0)` throws on two empty faces.
`inner_product(.., logical_and, equal_to)` over vectors of equal length is list equality. -/
def eq (lhs rhs : Face) : Out Bool :=
  if lhs.points.length = rhs.points.length then
    match lhs.points with
    | [] => .thrown .outOfRange
    | a :: _ => .ok (eqFrom a lhs.points rhs.points)
  else .ok false

/-- `operator!=(Face, Face)`: face.cpp:280-283 (`!operator==(rhs, lhs)`: operands swapped). -/
def ne (lhs rhs : Face) : Out Bool := do
  let b ← eq rhs lhs
  .ok (!b)

section Convex
variable {K : Type} [Field K] [LinearOrder K]

/-- One iteration of the loop of `Face::is_convex`: face.cpp:196-198. -/
def turnOk (co : List (V3 K)) (n : V3 K) (t : Nat × Nat × Nat) : Out Bool := do
  let A ← Out.atOr co t.1
  let B ← Out.atOr co t.2.1
  let C ← Out.atOr co t.2.2
  .ok (decide (V3.dot (V3.cross (V3.vec A B) n) (V3.vec B C) < 0))

/-- The `do .. while(convexity && ++circulator != end)` loop: face.cpp:175-199. -/
def convexLoop (co : List (V3 K)) (n : V3 K) : List (Nat × Nat × Nat) → Out Bool
  | [] => .ok true
  | t :: ts => do
    let b ← turnOk co n t
    if b then convexLoop co n ts else .ok false

/-- Positions `circulator, next_1, next_2` of the loop: face.cpp:177-195, for iteration `i` of `d`. -/
def window (p : List Nat) (i : Nat) : Nat × Nat × Nat :=
  let d := p.length
  if i = d - 2 then (p.getD i 0, p.getD (i + 1) 0, p.getD 0 0)
  else if i = d - 1 then (p.getD i 0, p.getD 0 0, p.getD 1 0)
  else (p.getD i 0, p.getD (i + 1) 0, p.getD (i + 2) 0)

/-- `Face::is_convex`: face.cpp:155-202. -/
def isConvex (f : Face) (co : List (V3 K)) : Out Bool :=
  let p := f.points
  let d := p.length
  if co.length < d then .thrown .outOfRange
  else if d < 3 then .thrown .outOfRange
  else if 3 < d then do
    let a ← Out.atOr co (p.getD 0 0)
    let b ← Out.atOr co (p.getD 1 0)
    let c ← Out.atOr co (p.getD 2 0)
    let n := V3.cross (V3.vec a b) (V3.vec b c)
    convexLoop co n ((List.range d).map (window p))
  else .ok true
end Convex

end Face
end City
