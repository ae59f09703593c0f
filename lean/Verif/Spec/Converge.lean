import Verif.Spec.Energy
import Mathlib.Analysis.SpecialFunctions.Trigonometric.Arctan
import Mathlib.Analysis.Calculus.ContDiff.Defs
import Verif.Model.Integrators

/-! How close two lists of states are. -/

namespace Xdyn.Sim

open Blocked Body ContDiff

/-- All the components are between `-R` and `R`. -/
def Inside (R : ℝ) (x : List ℝ) : Prop := ∀ i, |x.getD i 0| ≤ R

/-- The components differ by at most `e`. -/
def Near (e : ℝ) (x y : List ℝ) : Prop := ∀ i, |x.getD i 0 - y.getD i 0| ≤ e

/-- A function of one variable that is Lipschitz on each interval `[-R, R]`. -/
def LipschitzOnIntervals (g : ℝ → ℝ) : Prop :=
  ∀ R, ∃ L, ∀ a b, |a| ≤ R → |b| ≤ R → |g a - g b| ≤ L * |a - b|

/-- The resistance is a Lipschitz function of the speed on each interval. -/
def Push.Regular : Push → Prop
  | .resistance _ R => LipschitzOnIntervals R
  | _ => True

/-- The force is a smooth function of the states: this leaves out quadratic damping, proportional to `|u| u`. -/
def Push.Smooth : Push → Prop
  | .quadraticDamping _ _ => False
  | .resistance _ R => ContDiff ℝ ∞ R
  | _ => True

/-- A Runge-Kutta method with a weight for each stage, whose weights have the sum 1. -/
structure WellWeighted (T : Tableau ℝ) : Prop where
  sum : T.weights.sum = 1
  length : T.weights.length = T.stages.length

/-- The heading of a body whose axes have the rotation matrix `R`, at least when it is between -90 and 90 degrees: the angle of its first axis. -/
def HeadingOf (psiOf : Mat3 ℝ → ℝ) : Prop := ∀ R : Mat3 ℝ, 0 < R 0 0 → psiOf R = Real.arctan (R 1 0 / R 0 0)

/-- The controller uses the heading. -/
def Control.ReadsHeading : Control → Prop
  | .stationKeeping _ psiOf _ _ _ _ => HeadingOf psiOf
  | .heading _ psiOf _ _ _ _ => HeadingOf psiOf

end Xdyn.Sim
