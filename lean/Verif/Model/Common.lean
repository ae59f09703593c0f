/-
Outcomes of C++ functions.  A function that may fail returns an `Except Err`: `throw` is a
C++ exception (with a tag for its type or message), `ub` is undefined behaviour
(access out of bounds of a `std::vector` with `operator[]`, use of an indeterminate
value...).
-/

namespace Xdyn

inductive Err where
  | throw (what : String)
  | ub
deriving Repr, DecidableEq

/-- `v[i]` for a `std::vector`: undefined behaviour out of bounds. -/
def getUB {α : Type _} (l : List α) (i : Nat) : Except Err α :=
  match l[i]? with
  | some x => .ok x
  | none => .error .ub

/-- `v.at(i)`: throws `std::out_of_range` out of bounds. -/
def getAt {α : Type _} (l : List α) (i : Nat) : Except Err α :=
  match l[i]? with
  | some x => .ok x
  | none => .error (.throw "out_of_range")

end Xdyn
