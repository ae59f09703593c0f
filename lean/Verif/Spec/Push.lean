import Verif.Model.Mechanical

/-! The forces of the force models `gravity`, `linear damping`, `quadratic damping`, `resistance curve` and
`constant force`, as functions of the state of the body, and the equations of motion. -/

namespace Xdyn.Sim

open Blocked Body

/-- A force model with its parameters. -/
inductive Push where
  /-- inertia of the body without added mass, acceleration of gravity -/
  | gravity (inertia : Mat6 ℝ) (g : ℝ)
  /-- damping matrix, point where the forces are given -/
  | linearDamping (P : Vec3 ℝ) (D : Fin 6 → Fin 6 → ℝ)
  | quadraticDamping (P : Vec3 ℝ) (D : Fin 6 → Fin 6 → ℝ)
  /-- resistance against speed -/
  | resistance (P : Vec3 ℝ) (R : ℝ → ℝ)
  /-- force and torque in the axes of the body, point of application -/
  | bodyForce (force torque P : Vec3 ℝ)
  /-- force and torque in the axes of NED, point of application -/
  | nedForce (force torque P : Vec3 ℝ)

/-- The force is given in the axes of the body. -/
def Push.InBody : Push → Prop
  | .bodyForce _ _ _ => True
  | _ => False

/-- The force model of the code. -/
noncomputable def Push.model (b : Multi.MBody ℝ) : Push → Multi.Force ℝ
  | .gravity M g => gravityModel b M g
  | .linearDamping P D => linearDampingModel b P D
  | .quadraticDamping P D => quadraticDampingModel b P D
  | .resistance P R => resistanceModel b P R
  | .bodyForce f m P => constantModel b b.name f m P
  | .nedForce f m P => constantModel b "NED" f m P

/-- Force and torque at the centre of gravity `G`, in the axes of the body, when its velocity is `u`, its rate of turn `w`
and its attitude `q`. -/
noncomputable def Push.wrench (G u w : Vec3 ℝ) (q : Quat ℝ) : Push → Vec3 ℝ × Vec3 ℝ
  | .gravity M g => (q.matrix.transpose.mulVec ![0, 0, M 2 2 * g], 0)
  | .linearDamping _ D =>
    (fun i => -(D (i.castLE (by omega)) 0 * u 0 + D (i.castLE (by omega)) 1 * u 1 + D (i.castLE (by omega)) 2 * u 2 +
        D (i.castLE (by omega)) 3 * w 0 + D (i.castLE (by omega)) 4 * w 1 + D (i.castLE (by omega)) 5 * w 2),
     fun i => -(D (i.natAdd 3) 0 * u 0 + D (i.natAdd 3) 1 * u 1 + D (i.natAdd 3) 2 * u 2 +
        D (i.natAdd 3) 3 * w 0 + D (i.natAdd 3) 4 * w 1 + D (i.natAdd 3) 5 * w 2))
  | .quadraticDamping _ D =>
    (fun i => -(D (i.castLE (by omega)) 0 * (|u 0| * u 0) + D (i.castLE (by omega)) 1 * (|u 1| * u 1) +
        D (i.castLE (by omega)) 2 * (|u 2| * u 2) + D (i.castLE (by omega)) 3 * (|w 0| * w 0) +
        D (i.castLE (by omega)) 4 * (|w 1| * w 1) + D (i.castLE (by omega)) 5 * (|w 2| * w 2)),
     fun i => -(D (i.natAdd 3) 0 * (|u 0| * u 0) + D (i.natAdd 3) 1 * (|u 1| * u 1) + D (i.natAdd 3) 2 * (|u 2| * u 2) +
        D (i.natAdd 3) 3 * (|w 0| * w 0) + D (i.natAdd 3) 4 * (|w 1| * w 1) + D (i.natAdd 3) 5 * (|w 2| * w 2)))
  | .resistance _ R => (![-(R (u 0)), 0, 0], 0)
  | .bodyForce f m P => (f, m + cross (P - G) f)
  | .nedForce f m P => (q.matrix.transpose.mulVec f, q.matrix.transpose.mulVec (m + cross (P - G) f))

/-- Sum of the forces on a body, with the inertial forces `coriolis`. -/
noncomputable def resultant (b : Multi.MBody ℝ) (l : List Push) (u w : Vec3 ℝ) (q : Quat ℝ) : Vec3 ℝ × Vec3 ℝ :=
  b.coriolis u w + (l.map (Push.wrench b.G u w q)).sum

/-- The equations of motion of a body: the derivatives of the position are the velocity in NED, the inertia times the
derivatives of the velocities is the sum `F` of the forces, a function of the position, the velocity, the rate of turn and
the attitude, and the quaternion turns with the body. -/
noncomputable def newton (Minv : Mat6 ℝ) (F : Vec3 ℝ → Vec3 ℝ → Vec3 ℝ → Quat ℝ → Vec3 ℝ × Vec3 ℝ) (s : List ℝ) (_ : ℝ) : List ℝ :=
  match s with
  | [x, y, z, u, v, w, p, q, r, qr, qi, qj, qk] =>
    let V := (⟨qr, qi, qj, qk⟩ : Quat ℝ).matrix.mulVec ![u, v, w]
    let f := F ![x, y, z] ![u, v, w] ![p, q, r] ⟨qr, qi, qj, qk⟩
    let A := Minv.mulVec ![f.1 0, f.1 1, f.1 2, f.2 0, f.2 1, f.2 2]
    [V 0, V 1, V 2, A 0, A 1, A 2, A 3, A 4, A 5,
      (-qi * p - qj * q - qk * r) / 2, (qr * p + qj * r - qk * q) / 2, (qr * q - qi * r + qk * p) / 2,
      (qr * r + qi * q - qj * p) / 2]
  | _ => []

end Xdyn.Sim
