/-
What an HDF5 file should hold (C192).
-/
import Verif.Model.Hdf5
import Verif.Spec.Observer

namespace Xdyn.Hdf5

open Xdyn.Obs

/-- A column of numbers. -/
def column {N : Type} (zero : N) (xs : List N) : Dataset N where
  dims := [xs.length]
  elem
    | [k] => xs.getD k zero
    | _ => zero

/-- Dates of the grids: element `k` is the one of the grid `k` (there is room for one grid before the first one is written). -/
def dates {N : Type} (zero : N) (gs : List (Grid N)) : Dataset N where
  dims := [max 1 gs.length]
  elem
    | [k] => (gs[k]?).elim zero Grid.t
    | _ => zero

/-- Abscissae (or ordinates) of the grids, `axis g` being the `n` ones of the grid `g`: element `(k,i)` is the coordinate `i` of the grid `k`. -/
def axes {N : Type} (zero : N) (axis : Grid N → List N) (n : Nat) (gs : List (Grid N)) : Dataset N where
  dims := [max 1 gs.length, n]
  elem
    | [k, i] => (gs[k]?).elim zero (fun g => (axis g).getD i zero)
    | _ => zero

/-- Elevations: element `(i,j,k)` is the elevation at the abscissa `i` and the ordinate `j` in the grid `k`. -/
def elevations {N : Type} (zero : N) (nx ny : Nat) (gs : List (Grid N)) : Dataset N where
  dims := [nx, ny, max 1 gs.length]
  elem
    | [i, j, k] => if i < nx ∧ j < ny then (gs[k]?).elim zero (fun g => g.z.get zero i j) else zero
    | _ => zero

/-- What a variable is during the whole simulation: a number (`none`) or a grid of `nx` times `ny` points. -/
abbrev Shape := Option (Nat × Nat)

/-- The value fits the shape. -/
def Fits {N : Type} : Shape → Val N (Grid N) → Prop
  | none, .num _ => True
  | some (nx, ny), .grid g => g.x.length = nx ∧ g.y.length = ny ∧ g.z.rows = nx ∧ g.z.cols = ny
  | _, _ => False

/-- Paths of the datasets of a variable. -/
def owned (address : List String) : Shape → List Path
  | none => [path address]
  | some _ => [wavePath 't', wavePath 'x', wavePath 'y', wavePath 'z']

/-- Neither path goes through the other one. -/
def Apart (p q : Path) : Prop := ¬ p <+: q ∧ ¬ q <+: p

end Xdyn.Hdf5
