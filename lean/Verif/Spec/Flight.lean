import Verif.Spec.Spin
import Verif.Spec.Energy
import Verif.Props.Motion

/-! The flight of a rigid body thrown with a spin, in a vacuum. -/

namespace Xdyn.Sim

open Blocked Body

/-- The vertical axis of NED, downwards. -/
def downward : Vec3 ℝ := ![0, 0, 1]

/-- Inertia of a rigid body of mass `m` given at its centre of gravity, for which `n` is a principal axis of inertia. -/
structure RigidInertia (M : Mat6 ℝ) (m : ℝ) (n : Vec3 ℝ) : Prop where
  mass : ∀ i j : Fin 3, M (i.castLE (by omega)) (j.castLE (by omega)) = if i = j then m else 0
  upper : ∀ i j : Fin 3, M (i.castLE (by omega)) (j.natAdd 3) = 0
  lower : ∀ i j : Fin 3, M (i.natAdd 3) (j.castLE (by omega)) = 0
  principal : ∃ I : ℝ, ∀ i : Fin 3, ∑ j : Fin 3, M (i.natAdd 3) (j.natAdd 3) * n j = I * n i

/-- The body is thrown at date 0 from `P` at the velocity `V` of NED, with the attitude `q`, and spins at `om` rad/s about its axis `n`: it goes along a parabola
and turns uniformly. The second component is the velocity in the axes of the body. -/
noncomputable def flight (P V n : Vec3 ℝ) (q : Quat ℝ) (g om t : ℝ) : List ℝ :=
  vec13 (P + t • V + (g * t ^ 2 / 2) • downward)
    ((turned q n (om * t)).matrix.transpose.mulVec (V + (g * t) • downward))
    (om • n) (turned q n (om * t))

end Xdyn.Sim
