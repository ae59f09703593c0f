import Verif.Model.Mechanical
import Mathlib.Analysis.SpecialFunctions.Trigonometric.Basic

/-
The force models `simple heading controller` and `simple station-keeping controller`
(force_models/src/SimpleHeadingKeepingController.cpp, SimpleStationKeepingController.cpp) as controlled
force models of a simulation (Model/MultiBody), with ControllableForceModel.cpp, on top of the laws of
Model/Forces.

External (SSC): the Euler angles of a rotation matrix; `psiOf` is the heading of a matrix.
Simplifications: `k->get(body_name, name)` (ControllableForceModel.cpp:59) is the transform that the
constructor (line 29) has added, which never changes and is the identity here (no coordinates, no angles in the
`YamlPosition`); the pointer `total_inertia` is the matrix `I`.
-/

namespace Xdyn.Sim

open Blocked Body

/-- `ControllableForceModel::get_command`, ControllableForceModel.cpp:78-96, for the controller called `name`. -/
def commandOf (cmd : Commands ℝ) (name command : String) : Except Err ℝ :=
  match cmd (name ++ "(" ++ command ++ ")") with
  | some v => .ok v
  | none => .error (.throw "InvalidInputException")

/-- `BodyStates::get_rot_from_ned_to_body`, BodyStates.cpp:100-103. -/
noncomputable def rotationOf (h : States (History ℝ)) : Except Err (Mat3 ℝ) := do
  return (⟨← h.qr.value 0, ← h.qi.value 0, ← h.qj.value 0, ← h.qk.value 0⟩ : Quat ℝ).matrix

/-- `ControllableForceModel::operator()`, ControllableForceModel.cpp:53-76, for an internal frame that is the one of the
body; `F` is the value of `get_force`. -/
noncomputable def controlledAtOrigin (b : Multi.MBody ℝ) (F : Fin 6 → ℝ) : Vec3 ℝ × Vec3 ℝ :=
  controlledWrenchAtG 1 0 b.G ![F 0, F 1, F 2] ![F 3, F 4, F 5]

/-- The parameters of the station-keeping controller, SimpleStationKeepingController.hpp. -/
structure StationKeeper where
  name : String
  ksiX : ℝ
  TX : ℝ
  ksiY : ℝ
  TY : ℝ
  ksiPsi : ℝ
  TPsi : ℝ

/-- `2*PI/T`, constructor of the controllers, SimpleStationKeepingController.cpp:50-57, SimpleHeadingKeepingController.cpp:38-44. -/
noncomputable def pulsation (T : ℝ) : ℝ := 2 * Real.pi / T

/-- The station-keeping controller: `operator()` with `SimpleStationKeepingController::get_force`,
SimpleStationKeepingController.cpp:63-84. -/
noncomputable def stationKeepingModel (b : Multi.MBody ℝ) (I : Fin 6 → Fin 6 → ℝ) (psiOf : Mat3 ℝ → ℝ) (c : StationKeeper) :
    Multi.Controlled ℝ := fun cmd h _ _ => do
  let xCo ← commandOf cmd c.name "x_co"
  let yCo ← commandOf cmd c.name "y_co"
  let psiCo ← commandOf cmd c.name "psi_co"
  let R ← rotationOf h
  let x ← h.x.value 0
  let y ← h.y.value 0
  let u ← h.u.value 0
  let v ← h.v.value 0
  let r ← h.r.value 0
  return controlledAtOrigin b (Forces.stationKeeping I c.ksiX (pulsation c.TX) c.ksiY (pulsation c.TY) c.ksiPsi (pulsation c.TPsi)
    xCo yCo psiCo x y (psiOf R) u v r)

/-- The heading controller: `operator()` with `SimpleHeadingKeepingController::get_force`,
SimpleHeadingKeepingController.cpp:46-57. -/
noncomputable def headingModel (b : Multi.MBody ℝ) (I : Fin 6 → Fin 6 → ℝ) (psiOf : Mat3 ℝ → ℝ) (name : String) (ksi Tp : ℝ) :
    Multi.Controlled ℝ := fun cmd h _ _ => do
  let psiCo ← commandOf cmd name "psi_co"
  let R ← rotationOf h
  let r ← h.r.value 0
  return controlledAtOrigin b ![0, 0, 0, 0, 0, Forces.headingController I ksi (pulsation Tp) psiCo (psiOf R) r]

end Xdyn.Sim
