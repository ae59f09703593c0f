import Verif.Spec.Control
import Mathlib.Algebra.BigOperators.Fin
import Mathlib.Analysis.Calculus.Deriv.Basic

/-! Kinetic energy, momentum, power: what the equations of motion of a body are expected to do. -/

namespace Xdyn.Sim

open Blocked Body

/-- Velocity `u` and rate of turn `w`, in the axes of the body. -/
def velocity6 (u w : Vec3 ℝ) : Vec6 ℝ := ![u 0, u 1, u 2, w 0, w 1, w 2]

/-- Kinetic energy of a body whose inertia is `M`. -/
noncomputable def kinetic (M : Mat6 ℝ) (u w : Vec3 ℝ) : ℝ := (∑ i, ∑ j, velocity6 u w i * M i j * velocity6 u w j) / 2

/-- Momentum, in the axes of the body. -/
noncomputable def linearMomentum (M : Mat6 ℝ) (u w : Vec3 ℝ) : Vec3 ℝ := fun i => ∑ j, M (i.castLE (by omega)) j * velocity6 u w j

/-- Angular momentum about the origin of the axes of the body, in these axes. -/
noncomputable def angularMomentum (M : Mat6 ℝ) (u w : Vec3 ℝ) : Vec3 ℝ := fun i => ∑ j, M (i.natAdd 3) j * velocity6 u w j

/-- Coriolis and centripetal forces: what remains of the derivatives of the momentum and of the angular momentum when they are written in
the axes of the body. -/
noncomputable def inertialForces (M : Mat6 ℝ) (u w : Vec3 ℝ) : Vec3 ℝ × Vec3 ℝ :=
  (cross (linearMomentum M u w) w, cross (linearMomentum M u w) u + cross (angularMomentum M u w) w)

/-- Power of a force and of a torque. -/
noncomputable def powerOf (F : Vec3 ℝ × Vec3 ℝ) (u w : Vec3 ℝ) : ℝ := dot F.1 u + dot F.2 w

/-- The forces and torques of the force models and of the controllers. -/
noncomputable def applied (b : Multi.MBody ℝ) (l : List Push) (cs : List Control) (P u w : Vec3 ℝ) (q : Quat ℝ) : Vec3 ℝ × Vec3 ℝ :=
  (l.map (Push.wrench b.G u w q)).sum + (cs.map (Control.wrench b.G P u w q)).sum

/-- Potential energy of the force models `gravity`: `-m g z`. -/
noncomputable def potential (l : List Push) (P : Vec3 ℝ) : ℝ :=
  (l.map fun | .gravity M g => -(M 2 2 * g * P 2) | _ => 0).sum

/-- The force models other than gravity. -/
def Push.notGravity : Push → Bool
  | .gravity _ _ => false
  | _ => true

/-- The thirteen states of a body. -/
def positionOf (s : List ℝ) : Vec3 ℝ := ![s.getD 0 0, s.getD 1 0, s.getD 2 0]
def velocityOf (s : List ℝ) : Vec3 ℝ := ![s.getD 3 0, s.getD 4 0, s.getD 5 0]
def turnOf (s : List ℝ) : Vec3 ℝ := ![s.getD 6 0, s.getD 7 0, s.getD 8 0]
def attitudeOf (s : List ℝ) : Quat ℝ := ⟨s.getD 9 0, s.getD 10 0, s.getD 11 0, s.getD 12 0⟩

/-- `y` is a motion: the derivatives of its thirteen components are those given by `f`. -/
def IsMotion (f : List ℝ → ℝ → List ℝ) (y : ℝ → List ℝ) : Prop :=
  ∀ t, (y t).length = 13 ∧ ∀ i, HasDerivAt (fun t => (y t).getD i 0) ((f (y t) t).getD i 0) t

/-- Momentum in the axes of NED. -/
noncomputable def nedMomentum (M : Mat6 ℝ) (s : List ℝ) : Vec3 ℝ :=
  (attitudeOf s).matrix.mulVec (linearMomentum M (velocityOf s) (turnOf s))

/-- Angular momentum about the origin of NED, in the axes of NED. -/
noncomputable def nedAngularMomentum (M : Mat6 ℝ) (s : List ℝ) : Vec3 ℝ :=
  cross (positionOf s) (nedMomentum M s) + (attitudeOf s).matrix.mulVec (angularMomentum M (velocityOf s) (turnOf s))

end Xdyn.Sim
