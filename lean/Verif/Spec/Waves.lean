import Mathlib.Algebra.BigOperators.Intervals
import Mathlib.Data.Real.Basic
import Mathlib.Analysis.Calculus.Deriv.Basic

/-
Specification vocabulary for the wave properties.
-/

namespace Xdyn.Waves.Spec

noncomputable section

/-- Trapezoidal rule for the points `(x i, y i)`, `i < n`. -/
def trapezoid (n : Nat) (x y : Nat → ℝ) : ℝ :=
  ∑ i ∈ Finset.range (n - 1), (x (i + 1) - x i) * ((y i + y (i + 1)) / 2)

/-- Integral represented by `n` samples: the trapezoidal rule, or the value itself when there is only one sample (a Dirac). -/
def integral (n : Nat) (x y : Nat → ℝ) : ℝ := if n = 1 then y 0 else trapezoid n x y

/-- The list as a function. -/
def fn (l : List ℝ) (i : Nat) : ℝ := l.getD i 0

/-- The linearised equations of an incompressible, irrotational perfect fluid at a point (z downwards): `div u = 0`, `rot u = 0`, `ρ ∂u/∂t = -grad p`. -/
structure LinearisedEuler (rho : ℝ) (U V W P : ℝ → ℝ → ℝ → ℝ → ℝ) (x y z t : ℝ) : Prop where
  incompressible : deriv (fun x => U x y z t) x + deriv (fun y => V x y z t) y + deriv (fun z => W x y z t) z = 0
  rot_y : deriv (fun z => U x y z t) z = deriv (fun x => W x y z t) x
  rot_x : deriv (fun z => V x y z t) z = deriv (fun y => W x y z t) y
  rot_z : deriv (fun y => U x y z t) y = deriv (fun x => V x y z t) x
  momentum_x : rho * deriv (fun t => U x y z t) t = -deriv (fun x => P x y z t) x
  momentum_y : rho * deriv (fun t => V x y z t) t = -deriv (fun y => P x y z t) y
  momentum_z : rho * deriv (fun t => W x y z t) t = -deriv (fun z => P x y z t) z

end

end Xdyn.Waves.Spec
