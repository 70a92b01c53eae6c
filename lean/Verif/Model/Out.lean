import Mathlib.Data.List.Forall2
/-
Outcome of an operation of the C++ code.

Not a transcription of one function: it is the vocabulary in which every other model file is written.
* `ok a`      : the call returns `a`;
* `thrown e`  : the call leaves by the C++ exception `e`;
* `ub`        : the C++ standard gives the call no meaning (out of range `operator[]`, past-the-end
                iterator arithmetic, null dereference, ...). It is a distinct outcome, never assumed away.
-/
namespace City

/-- The classes of exceptions thrown by /repo/src (standard exceptions and boost::filesystem's). -/
inductive Exc
  | logicError | outOfRange | rangeError | failure | runtimeError | overflowError
  | filesystemError | lengthError | invalidArgument | bad
  deriving DecidableEq, Repr

/-- Outcome of a modelled call. -/
inductive Out (α : Type)
  | ok (a : α)
  | thrown (e : Exc)
  | ub
  deriving DecidableEq, Repr

namespace Out

variable {α β γ : Type}

/-- Sequencing: exceptions and undefined behaviour stop the computation. -/
def bind (x : Out α) (f : α → Out β) : Out β :=
  match x with
  | ok a => f a
  | thrown e => thrown e
  | ub => ub

instance : Monad Out where
  pure := ok
  bind := bind

@[simp] theorem pure_eq (a : α) : (pure a : Out α) = ok a := rfl
@[simp] theorem ok_bind (a : α) (f : α → Out β) : (ok a >>= f) = f a := rfl
@[simp] theorem thrown_bind (e : Exc) (f : α → Out β) : ((thrown e : Out α) >>= f) = thrown e := rfl
@[simp] theorem ub_bind (f : α → Out β) : ((ub : Out α) >>= f) = ub := rfl
@[simp] theorem map_ok (a : α) (f : α → β) : (f <$> (ok a : Out α)) = ok (f a) := rfl
@[simp] theorem map_thrown (e : Exc) (f : α → β) : (f <$> (thrown e : Out α)) = thrown e := rfl
@[simp] theorem map_ub (f : α → β) : (f <$> (ub : Out α)) = ub := rfl

theorem bind_assoc' (x : Out α) (f : α → Out β) (g : β → Out γ) :
    (x >>= f) >>= g = x >>= fun a => f a >>= g := by
  cases x <;> rfl

theorem bind_eq_ok {x : Out α} {f : α → Out β} {b : β} :
    (x >>= f) = ok b ↔ ∃ a, x = ok a ∧ f a = ok b := by
  cases x <;> simp

theorem bind_eq_thrown {x : Out α} {f : α → Out β} {e : Exc} :
    (x >>= f) = thrown e ↔ x = thrown e ∨ ∃ a, x = ok a ∧ f a = thrown e := by
  cases x <;> simp

theorem bind_eq_ub {x : Out α} {f : α → Out β} :
    (x >>= f) = ub ↔ x = ub ∨ ∃ a, x = ok a ∧ f a = ub := by
  cases x <;> simp

/-- `std::transform` with a callback that may throw: elements are processed in order. -/
def mapM (f : α → Out β) : List α → Out (List β)
  | [] => ok []
  | a :: as => do
    let b ← f a
    let bs ← mapM f as
    ok (b :: bs)

@[simp] theorem mapM_nil (f : α → Out β) : mapM f [] = ok [] := rfl

theorem mapM_cons (f : α → Out β) (a : α) (as : List α) :
    mapM f (a :: as) = (f a >>= fun b => mapM f as >>= fun bs => ok (b :: bs)) := rfl

theorem mapM_eq_ok {f : α → Out β} {as : List α} {bs : List β} :
    mapM f as = ok bs ↔ List.Forall₂ (fun a b => f a = ok b) as bs := by
  induction as generalizing bs with
  | nil => cases bs <;> simp [mapM]
  | cons a as ih =>
    rw [mapM_cons]
    constructor
    · intro h
      obtain ⟨b, hb, h⟩ := bind_eq_ok.1 h
      obtain ⟨bs', hbs, h⟩ := bind_eq_ok.1 h
      cases h
      exact .cons hb (ih.1 hbs)
    · intro h
      cases h with
      | cons hb hbs => rw [hb, ok_bind, ih.2 hbs, ok_bind]

theorem mapM_ok_of {f : α → Out β} {g : α → β} {as : List α} (h : ∀ a ∈ as, f a = ok (g a)) :
    mapM f as = ok (as.map g) := by
  induction as with
  | nil => rfl
  | cons a as ih =>
    rw [mapM_cons, h a (by simp), ok_bind, ih (fun x hx => h x (by simp [hx])), ok_bind]
    rfl

theorem mapM_append {f : α → Out β} {as as' : List α} {bs bs' : List β}
    (h : mapM f as = ok bs) (h' : mapM f as' = ok bs') : mapM f (as ++ as') = ok (bs ++ bs') := by
  rw [mapM_eq_ok] at *
  exact List.rel_append h h'

theorem mapM_length {f : α → Out β} {as : List α} {bs : List β} (h : mapM f as = ok bs) :
    bs.length = as.length := (mapM_eq_ok.1 h).length_eq.symm

/-- `std::vector::at` / `std::deque::at`: checked access. -/
def atOr (l : List α) (i : Nat) : Out α :=
  match l[i]? with
  | some a => ok a
  | none => thrown .outOfRange

/-- `operator[]` of a vector, or dereferencing `begin() + i`: unchecked access. -/
def idx (l : List α) (i : Nat) : Out α :=
  match l[i]? with
  | some a => ok a
  | none => ub

theorem atOr_eq_ok {l : List α} {i : Nat} {a : α} : atOr l i = ok a ↔ l[i]? = some a := by
  unfold atOr; split <;> simp_all

theorem idx_eq_ok {l : List α} {i : Nat} {a : α} : idx l i = ok a ↔ l[i]? = some a := by
  unfold idx; split <;> simp_all

theorem atOr_ok {l : List α} {i : Nat} (h : i < l.length) : atOr l i = ok l[i] := by
  simp [atOr, h]

theorem idx_ok {l : List α} {i : Nat} (h : i < l.length) : idx l i = ok l[i] := by
  simp [idx, h]

theorem atOr_thrown {l : List α} {i : Nat} (h : l.length ≤ i) :
    atOr l i = thrown .outOfRange := by
  simp [atOr, h]

theorem idx_ub {l : List α} {i : Nat} (h : l.length ≤ i) : idx l i = ub := by
  simp [idx, h]

theorem atOr_ne_ub {l : List α} {i : Nat} : atOr l i ≠ ub := by
  unfold atOr; split <;> simp

/-- The call returned normally. -/
def isOk : Out α → Prop
  | ok _ => True
  | _ => False

/-- The call had a meaning: it returned or threw. -/
def Defined : Out α → Prop
  | ub => False
  | _ => True

@[simp] theorem defined_ok (a : α) : (ok a).Defined := trivial
@[simp] theorem defined_thrown (e : Exc) : (thrown e : Out α).Defined := trivial
@[simp] theorem not_defined_ub : ¬ (ub : Out α).Defined := id
theorem defined_iff {x : Out α} : x.Defined ↔ x ≠ ub := by cases x <;> simp

end Out
end City
