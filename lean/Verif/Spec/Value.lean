/-
Specification of values (C76): what the objects of a program hold after a history of constructions, assignments, moves and swaps. An object that was moved
from holds an unspecified value. Nothing here depends on the classes of the library.
-/
namespace City.Spec

/-- The statements of a program on numbered objects of one class. The last argument of a move is what the standard library leaves in the object moved from. -/
inductive Stmt (R : Type) where
  /-- `T d = ...;` for a new value. -/
  | fresh (d : Nat) (v : R)
  /-- `T d(s);` -/
  | copyCtor (d s : Nat)
  /-- `T d(std::move(s));` -/
  | moveCtor (d s : Nat) (junk : R)
  /-- `d = s;` -/
  | copyAssign (d s : Nat)
  /-- `d = std::move(s);` -/
  | moveAssign (d s : Nat) (junk : R)
  /-- `swap(a, b);` -/
  | swap (a b : Nat)

/-- What is known of the objects: `none` is unspecified. -/
def Known (R : Type) : Type := Nat → Option R

/-- The objects after a change of one of them. -/
def Known.put {R : Type} (k : Known R) (d : Nat) (v : Option R) : Known R := fun x => if x = d then v else k x

/-- The meaning of a statement. A construction is of a new object; an object that is constructed from itself, or moved to itself, is unspecified. -/
def Stmt.meaning {R : Type} (k : Known R) : Stmt R → Known R
  | .fresh d v => k.put d (some v)
  | .copyCtor d s => k.put d (if d = s then none else k s)
  | .moveCtor d s _ => (k.put d (k s)).put s none
  | .copyAssign d s => k.put d (k s)
  | .moveAssign d s _ => (k.put d (k s)).put s none
  | .swap a b => fun x => if x = a then k b else if x = b then k a else k x

/-- The meaning of a history. -/
def meaning {R : Type} (p : List (Stmt R)) (k : Known R) : Known R := p.foldl Stmt.meaning k

end City.Spec
