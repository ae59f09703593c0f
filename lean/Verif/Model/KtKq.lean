import Verif.Model.Forces

/-
The force model `Kt(J) & Kq(J)` (a propeller given by its open water tables): force_models/src/KtKqForceModel.cpp:16-96 and AbstractWageningen.cpp:50-77.

External (SSC): `SplineVariableStep`, whose value between the first and the last abscissa is the parameter `spline`, and which throws an `IndexFinderException` for an abscissa out of these bounds; what it
does with a NaN is the parameter `onNaN`.
-/

namespace Xdyn.Forces

variable {K : Type} [Field K] [LinearOrder K]

/-- `KtKqForceModel::get_Kt` and `get_Kq`, KtKqForceModel.cpp:67-96. -/
def tableCoefficient (spline : List K → List K → K → K) (onNaN : Except Err (Ratio K)) (J tab : List K) : Ratio K → Except Err (Ratio K)
  | .num j => if J.headD 0 ≤ j ∧ j ≤ J.getLastD 0 then .ok (.num (spline J tab j)) else .error (.throw "NumericalErrorException")
  | .posInf => .error (.throw "NumericalErrorException")
  | .negInf => .error (.throw "NumericalErrorException")
  | .nan => onNaN

/-- The parameters of the file, KtKqForceModel.cpp:29-65 and AbstractWageningen.cpp:21-48. -/
structure OpenWater (K : Type) where
  w : K
  etaR : K
  t : K
  D : K
  clockwise : Bool
  J : List K
  Kt : List K
  Kq : List K

/-- `AbstractWageningen::get_force` of that force model, AbstractWageningen.cpp:67-77: thrust and torque; `rpm` is the command, in radians per second, `pi` the constant `PI`.
Simplification: the square of the speed of rotation in turns per second is `n * n` (`rpm*rpm/(4*PI*PI)` in the code). -/
def openWaterForce (spline : List K → List K → K → K) (onNaN : Except Err (Ratio K)) (pi rho : K) (p : OpenWater K) (u rpm : K) : Except Err (Ratio K × Ratio K) := do
  let n := rpm / (2 * pi)
  let kt ← tableCoefficient spline onNaN p.J p.Kt (advanceRatio p.w u n p.D)
  let kq ← tableCoefficient spline onNaN p.J p.Kq (advanceRatio p.w u n p.D)
  return propeller rho p.w p.etaR p.t p.D p.clockwise (fun _ => kt) (fun _ => kq) u n

end Xdyn.Forces
