import Verif.Model.Control
import Verif.Spec.Push

/-! The forces of the controllers, as functions of the state of the body, and the motion of a body that does not turn. -/

namespace Xdyn.Sim

open Blocked Body

/-- A controller with its parameters (`I` is the inertia of the body with added mass) and the values of its commands. -/
inductive Control where
  | stationKeeping (I : Fin 6 → Fin 6 → ℝ) (psiOf : Mat3 ℝ → ℝ) (c : StationKeeper) (xCo yCo psiCo : ℝ)
  | heading (I : Fin 6 → Fin 6 → ℝ) (psiOf : Mat3 ℝ → ℝ) (name : String) (ksi Tp psiCo : ℝ)

/-- The force model of the code. -/
noncomputable def Control.model (b : Multi.MBody ℝ) : Control → Multi.Controlled ℝ
  | .stationKeeping I psiOf c _ _ _ => stationKeepingModel b I psiOf c
  | .heading I psiOf name ksi Tp _ => headingModel b I psiOf name ksi Tp

/-- The commands have these values. -/
def Control.Commanded (cmd : Commands ℝ) : Control → Prop
  | .stationKeeping _ _ c xCo yCo psiCo =>
    cmd (c.name ++ "(x_co)") = some xCo ∧ cmd (c.name ++ "(y_co)") = some yCo ∧ cmd (c.name ++ "(psi_co)") = some psiCo
  | .heading _ _ name _ _ psiCo => cmd (name ++ "(psi_co)") = some psiCo

/-- Force of the station-keeping controller along the first two axes of the body, and its torque about the third one. -/
noncomputable def keeperForce (I : Fin 6 → Fin 6 → ℝ) (c : StationKeeper) (xCo yCo : ℝ) (P u : Vec3 ℝ) : Vec3 ℝ :=
  ![I 0 0 * ((2 * Real.pi / c.TX) ^ 2 * (xCo - P 0) - 2 * c.ksiX * (2 * Real.pi / c.TX) * u 0),
    I 1 1 * ((2 * Real.pi / c.TY) ^ 2 * (yCo - P 1) - 2 * c.ksiY * (2 * Real.pi / c.TY) * u 1), 0]

/-- Force and torque at the centre of gravity `G`, in the axes of the body, when its position is `P`, its velocity `u`, its rate of
turn `w` and its attitude `q`: the controllers act at the origin of the axes of the body. -/
noncomputable def Control.wrench (G P u w : Vec3 ℝ) (q : Quat ℝ) : Control → Vec3 ℝ × Vec3 ℝ
  | .stationKeeping I psiOf c xCo yCo psiCo =>
    (keeperForce I c xCo yCo P u,
      ![0, 0, I 5 5 * ((2 * Real.pi / c.TPsi) ^ 2 * (psiCo - psiOf q.matrix) - 2 * c.ksiPsi * (2 * Real.pi / c.TPsi) * w 2)] -
        cross G (keeperForce I c xCo yCo P u))
  | .heading I psiOf _ ksi Tp psiCo =>
    (0, ![0, 0, I 2 2 * ((2 * Real.pi / Tp) ^ 2 * (psiCo - psiOf q.matrix) - 2 * ksi * (2 * Real.pi / Tp) * w 2)])

/-- Sum of the forces on a body. -/
noncomputable def total (b : Multi.MBody ℝ) (l : List Push) (cs : List Control) (P u w : Vec3 ℝ) (q : Quat ℝ) : Vec3 ℝ × Vec3 ℝ :=
  resultant b l u w q + (cs.map (Control.wrench b.G P u w q)).sum

/-- Motion of a body that does not turn: `R` gives the coordinates in NED of a vector from its coordinates in the axes of the body,
`a P v` is the acceleration at the position `P` with the velocity `v`, in the axes of the body. -/
noncomputable def translation (R : Mat3 ℝ) (a : Vec3 ℝ → Vec3 ℝ → Vec3 ℝ) (s : List ℝ) (_ : ℝ) : List ℝ :=
  match s with
  | [x, y, z, u, v, w] =>
    [R.mulVec ![u, v, w] 0, R.mulVec ![u, v, w] 1, R.mulVec ![u, v, w] 2,
      a ![x, y, z] ![u, v, w] 0, a ![x, y, z] ![u, v, w] 1, a ![x, y, z] ![u, v, w] 2]
  | _ => []

/-- Position and velocity. -/
def vec6 (P v : Vec3 ℝ) : List ℝ := [P 0, P 1, P 2, v 0, v 1, v 2]

end Xdyn.Sim
