/-
Model of `WageningenControlledForceModel` (force_models/src/WageningenControlledForceModel.cpp): the tables of the B series and the force, on top of
Model/Forces.lean (advance ratio, saturation, polynomials, `AbstractWageningen::get_force`).

Simplification. Real numbers instead of `double`; `n2`, AbstractWageningen.cpp:72, is the square of `n`.
-/
import Verif.Model.Forces
import Mathlib.Analysis.Real.Pi.Bounds

namespace Xdyn.Forces

/-- `ct`, WageningenControlledForceModel.cpp:51 -/
def coeffT : List ℝ := [
  0.00880496, -0.204554, 0.166351, 0.158114, -0.147581, -0.481497, 0.415437, 0.0144043, -0.0530054, 0.0143481, 0.0606826, -0.0125894,
  0.0109689, -0.133698, 0.00638407, -0.00132718, 0.168496, -0.0507214, 0.0854559, -0.0504475, 0.010465, -0.00648272, -0.00841728, 0.0168424,
  -0.00102296, -0.0317791, 0.018604, -0.00410798, -0.000606848, -0.0049819, 0.0025983, -0.000560528, -0.00163652, -0.000328787, 0.000116502,
  0.000690904, 0.00421749, 0.0000565229, -0.00146564]

/-- `st`, WageningenControlledForceModel.cpp:52 -/
def expJT : List Nat := [
  0, 1, 0, 0, 2, 1, 0, 0, 2, 0, 1, 0, 1, 0, 0, 2, 3, 0, 2, 3, 1, 2, 0, 1, 3, 0, 1, 0, 0, 1, 2, 3, 1, 1, 2, 0, 0, 3, 0]

/-- `tt`, WageningenControlledForceModel.cpp:53 -/
def expPDT : List Nat := [
  0, 0, 1, 2, 0, 1, 2, 0, 0, 1, 1, 0, 0, 3, 6, 6, 0, 0, 0, 0, 6, 6, 3, 3, 3, 3, 0, 2, 0, 0, 0, 0, 2, 6, 6, 0, 3, 6, 3]

/-- `ut`, WageningenControlledForceModel.cpp:54 -/
def expAET : List Nat := [
  0, 0, 0, 0, 1, 1, 1, 0, 0, 0, 0, 1, 1, 0, 0, 0, 1, 2, 2, 2, 2, 2, 0, 0, 0, 1, 2, 2, 0, 0, 0, 0, 0, 0, 0, 1, 1, 1, 2]

/-- `vt`, WageningenControlledForceModel.cpp:55 -/
def expZT : List Nat := [
  0, 0, 0, 0, 0, 0, 0, 1, 1, 1, 1, 1, 1, 0, 0, 0, 0, 0, 0, 0, 0, 0, 1, 1, 1, 1, 1, 1, 2, 2, 2, 2, 2, 2, 2, 2, 2, 2, 2]

/-- `cq`, WageningenControlledForceModel.cpp:56 -/
def coeffQ : List ℝ := [
  0.00379368, 0.00886523, -0.032241, 0.00344778, -0.0408811, -0.108009, -0.0885381, 0.188561, -0.00370871, 0.00513696, 0.0209449, 0.00474319,
  -0.00723408, 0.00438388, -0.0269403, 0.0558082, 0.0161886, 0.00318086, 0.015896, 0.0471729, 0.0196283, -0.0502782, -0.030055, 0.0417122,
  -0.0397722, -0.00350024, -0.0106854, 0.00110903, -0.000313912, 0.0035985, -0.00142121, -0.00383637, 0.0126803, -0.00318278, 0.00334268,
  -0.00183491, 0.000112451, -0.0000297228, 0.000269551, 0.00083265, 0.00155334, 0.000302683, -0.0001843, -0.000425399, 0.0000869243,
  -0.0004659, 0.0000554194]

/-- `sq`, WageningenControlledForceModel.cpp:57 -/
def expJQ : List Nat := [
  0, 2, 1, 0, 0, 1, 2, 0, 1, 0, 1, 2, 2, 1, 0, 3, 0, 1, 0, 1, 3, 0, 3, 2, 0, 0, 3, 3, 0, 3, 0, 1, 0, 2, 0, 1, 3, 3, 1, 2, 0, 0, 0, 0, 3, 0, 1]

/-- `tq`, WageningenControlledForceModel.cpp:58 -/
def expPDQ : List Nat := [
  0, 0, 1, 2, 1, 1, 1, 2, 0, 1, 1, 1, 0, 1, 2, 0, 3, 3, 0, 0, 0, 1, 1, 2, 3, 6, 0, 3, 6, 0, 6, 0, 2, 3, 6, 1, 2, 6, 0, 0, 2, 6, 0, 3, 3, 6, 6]

/-- `uq`, WageningenControlledForceModel.cpp:59 -/
def expAEQ : List Nat := [
  0, 0, 0, 0, 1, 1, 1, 1, 0, 0, 0, 0, 1, 1, 1, 1, 1, 1, 2, 2, 2, 2, 2, 2, 2, 2, 0, 0, 0, 1, 1, 2, 2, 2, 2, 0, 0, 0, 1, 1, 1, 1, 2, 2, 2, 2, 2]

/-- `vq`, WageningenControlledForceModel.cpp:60 -/
def expZQ : List Nat := [
  0, 0, 0, 0, 0, 0, 0, 0, 1, 1, 1, 1, 1, 1, 1, 0, 0, 0, 0, 0, 0, 0, 0, 0, 0, 0, 1, 1, 1, 1, 1, 1, 1, 1, 1, 2, 2, 2, 2, 2, 2, 2, 2, 2, 2, 2, 2]

/-- The terms `i` of the sums, WageningenControlledForceModel.cpp:104-107, 116-119 -/
def terms : List ℝ → List Nat → List Nat → List Nat → List Nat → List (Monomial ℝ)
  | c :: cs, s :: ss, t :: ts, u :: us, v :: vs => ⟨c, s, t, u, v⟩ :: terms cs ss ts us vs
  | _, _, _, _, _ => []

/-- The 39 terms of `Kt`, WageningenControlledForceModel.cpp:104-107 (NB_COEFF_KT, WageningenControlledForceModel.hpp:13) -/
def ktTable : List (Monomial ℝ) := terms coeffT expJT expPDT expAET expZT

/-- The 47 terms of `Kq`, WageningenControlledForceModel.cpp:116-119 (NB_COEFF_KQ, WageningenControlledForceModel.hpp:14) -/
def kqTable : List (Monomial ℝ) := terms coeffQ expJQ expPDQ expAEQ expZQ

/-- Parameters: WageningenControlledForceModel.hpp:30-37, AbstractWageningen.hpp:24-35 -/
structure BSeries where
  blades : Nat
  areaRatio : ℝ
  wake : ℝ
  deduction : ℝ
  efficiency : ℝ
  diameter : ℝ
  clockwise : Bool

/-- `commands.at(name)` -/
def command (commands : List (String × ℝ)) (name : String) : Except Err ℝ :=
  match commands.lookup name with
  | some x => .ok x
  | none => .error (.throw "out_of_range")

/-- `get_force` of the model, AbstractWageningen.cpp:69-77 with WageningenControlledForceModel.cpp:35-45: thrust along x and torque around x. -/
noncomputable def bSeriesForce (y : BSeries) (rho u : ℝ) (commands : List (String × ℝ)) : Except Err (Ratio ℝ × Ratio ℝ) := do
  let rpm ← command commands "rpm"
  let pd ← command commands "P/D"
  pure (propeller rho y.wake y.efficiency y.deduction y.diameter y.clockwise (polynomial ktTable y.blades y.areaRatio pd)
    (polynomial kqTable y.blades y.areaRatio pd) u (rpm / (2 * Real.pi)))

end Xdyn.Forces
