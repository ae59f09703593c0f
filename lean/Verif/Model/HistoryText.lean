import Verif.Model.History

/-
`operator<<` of a `History`: hdb_interpolators/src/History.cpp:243-253.  `fmt` is the text of a number.
-/

namespace Xdyn.History

variable {K : Type}

/-- `std::vector::at`. -/
def atThrow {α : Type} (l : List α) (i : Nat) : Except Err α :=
  match l[i]? with
  | some x => .ok x
  | none => .error (.throw "std::out_of_range")

/-- `os << "(" << p.first << "," << p.second << ")"`, History.cpp:248 and 250. -/
def sampleText (fmt : K → List Char) (p : K × K) : List Char := '(' :: (fmt p.1 ++ ',' :: (fmt p.2 ++ [')']))

/-- `h.L.size() - 1` for an unsigned type of 64 bits, History.cpp:246. -/
def sizeMinusOne (n : Nat) : Nat := (n + (2 ^ 64 - 1)) % 2 ^ 64

/-- The loop of `operator<<`, History.cpp:246-249. -/
def printLoop (fmt : K → List Char) (L : List (K × K)) : Except Err (List Char) :=
  (List.range (sizeMinusOne L.length)).foldlM (fun os i => do
    let p ← atThrow L i
    return os ++ (sampleText fmt p ++ [',', ' '])) ['[']

/-- `operator<<`, History.cpp:243-253. -/
def print (fmt : K → List Char) (h : History K) : Except Err (List Char) := do
  let os ← printLoop fmt h.L
  match h.L.getLast? with
  | some p => return os ++ sampleText fmt p ++ [']']
  | none => return os ++ [']']

end Xdyn.History
