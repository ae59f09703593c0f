/-
Model of the length of the history needed by maneuvering expressions: the bounds of the nodes
(code/force_models/src/ManeuveringInternal.cpp: get_min, get_max), the visitor FindTmax and
ManeuveringForceModel::get_Tmax. Arithmetic is over the reals; `lit` is the value of the literals.
-/
import Mathlib.Analysis.SpecialFunctions.Pow.Real
import Mathlib.Analysis.SpecialFunctions.Trigonometric.Basic
import Mathlib.Analysis.SpecialFunctions.Sqrt
import Verif.Model.Maneuvering

namespace Xdyn.Maneuvering

/-- real arithmetic. `nan` is any number: there is no NaN in the reals. -/
noncomputable def realArith (lit : Text → ℝ) (nan : ℝ) : Arith ℝ where
  lit := lit
  nan := nan
  add := (· + ·)
  sub := (· - ·)
  mul := (· * ·)
  div := (· / ·)
  pow := fun x y => x ^ y
  fn := fun f => match f with
    | .cos => Real.cos
    | .sin => Real.sin
    | .exp => Real.exp
    | .abs => fun x => |x|
    | .log => Real.log
    | .sqrt => Real.sqrt

/-- (get_min, get_max): ManeuveringInternal.cpp:51-59 (Constant), 87-95, 114-122 (Cos, Sin), 142-150
(Abs), 157-165 (Log), 210-218 (Sum), 239-255 (Pow), 270-278 (Exp), 303-311 (Sqrt), 332-340
(Difference), 361-369 (Divide), 390-398 (Multiply), 417-425 (Time), 450-458 (UnknownIdentifier), and
ManeuveringInternal.hpp:239-247 (State) -/
noncomputable def bounds (lit : Text → ℝ) (nan : ℝ) : Node → ℝ × ℝ
  | .nan => (nan, nan)
  | .constant l => (lit l, lit l)
  | .time => (0, 0)
  | .unknown _ => (0, 0)
  | .fn f a =>
    let b := bounds lit nan a
    match f with
    | .cos => (-1, 1)
    | .sin => (-1, 1)
    | .exp => (Real.exp b.1, Real.exp b.2)
    | .abs => (0, max |b.2| |b.1|)
    | .log => (Real.log b.1, Real.log b.2)
    | .sqrt => (Real.sqrt b.1, Real.sqrt b.2)
  | .state _ _ => (-10 ^ 15, 10 ^ 15)
  | .bin o a b =>
    let l := bounds lit nan a
    let r := bounds lit nan b
    match o with
    | .sum => (l.1 + r.1, l.2 + r.2)
    | .difference => (l.1 - r.2, l.2 - r.1)
    | .multiply => (l.1 * r.1, l.2 * r.2)
    | .divide => (l.1 / r.2, l.2 / r.1)
    | .pow =>
      (min (min (l.1 ^ r.1) (l.1 ^ r.2)) (min (l.2 ^ r.1) (l.2 ^ r.2)),
       max (max (l.1 ^ r.1) (l.1 ^ r.2)) (max (l.2 ^ r.1) (l.2 ^ r.2)))

/-- FindTmax, ManeuveringInternal.cpp:678-785, the argument being the value of `Tmax` before the
visit: only the state x uses get_min; the operand of a state is not visited -/
noncomputable def findTmax (lit : Text → ℝ) (nan : ℝ) : ℝ → Node → ℝ
  | T, .nan => T
  | T, .constant _ => T
  | T, .time => T
  | T, .unknown _ => T
  | T, .fn _ a => findTmax lit nan T a
  | T, .state .X a => max T (-(bounds lit nan a).1)
  | T, .state _ a => max T (-(bounds lit nan a).2)
  | T, .bin _ a b => findTmax lit nan (findTmax lit nan T a) b

/-- maneuvering::get_Tmax, maneuvering_compiler.cpp:187-192 -/
noncomputable def getTmax (lit : Text → ℝ) (nan : ℝ) (n : Node) : ℝ := findTmax lit nan 0 n

/-- ManeuveringForceModel::get_Tmax, ManeuveringForceModel.cpp:104-112, over the nodes of the map -/
noncomputable def modelTmax (lit : Text → ℝ) (nan : ℝ) (m : List Node) : ℝ :=
  m.foldl (fun T n => max T (getTmax lit nan n)) 0

end Xdyn.Maneuvering
