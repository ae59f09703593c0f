import Verif.Spec.Control
import Verif.Model.Forces

/-! The same body with other units of length, of time and of mass (or a model of a ship, and the ship). -/

namespace Xdyn.Sim

open Blocked Body

/-- By how much the lengths, the durations and the masses are multiplied. -/
structure Scale where
  length : ℝ
  time : ℝ
  mass : ℝ
  length_pos : 0 < length
  time_pos : 0 < time
  mass_pos : 0 < mass

/-- Velocities: metres per second. -/
noncomputable def Scale.speed (c : Scale) : ℝ := c.length / c.time

/-- Rates of turn: radians per second. -/
noncomputable def Scale.rate (c : Scale) : ℝ := 1 / c.time

/-- Forces: kilograms times metres per square second. -/
noncomputable def Scale.force (c : Scale) : ℝ := c.mass * c.length / c.time ^ 2

/-- Torques: newtons times metres. -/
noncomputable def Scale.torque (c : Scale) : ℝ := c.mass * c.length ^ 2 / c.time ^ 2

/-- Densities: kilograms per cubic metre. -/
noncomputable def Scale.density (c : Scale) : ℝ := c.mass / c.length ^ 3

/-- Kinematic viscosity: square metres per second. -/
noncomputable def Scale.viscosity (c : Scale) : ℝ := c.length ^ 2 / c.time

/-- The six components of a wrench: three forces, three torques. -/
noncomputable def Scale.wrench6 (c : Scale) : Fin 6 → ℝ := ![c.force, c.force, c.force, c.torque, c.torque, c.torque]

/-- The six components of a velocity. -/
noncomputable def Scale.velocity6 (c : Scale) : Fin 6 → ℝ := ![c.speed, c.speed, c.speed, c.rate, c.rate, c.rate]

/-- The six components of an acceleration. -/
noncomputable def Scale.acceleration6 (c : Scale) : Fin 6 → ℝ := fun i => c.velocity6 i / c.time

/-- The states of the body. -/
noncomputable def Scale.states (c : Scale) : List ℝ → List ℝ
  | [x, y, z, u, v, w, p, q, r, qr, qi, qj, qk] =>
    [c.length * x, c.length * y, c.length * z, c.speed * u, c.speed * v, c.speed * w, c.rate * p, c.rate * q, c.rate * r, qr, qi, qj, qk]
  | s => s

/-- A matrix that gives forces from accelerations (inertia). -/
noncomputable def Scale.inertia (c : Scale) (M : Fin 6 → Fin 6 → ℝ) : Fin 6 → Fin 6 → ℝ := fun i j => c.wrench6 i / c.acceleration6 j * M i j

/-- A matrix that gives forces from velocities. -/
noncomputable def Scale.damping (c : Scale) (D : Fin 6 → Fin 6 → ℝ) : Fin 6 → Fin 6 → ℝ := fun i j => c.wrench6 i / c.velocity6 j * D i j

/-- A matrix that gives forces from squares of velocities. -/
noncomputable def Scale.damping2 (c : Scale) (D : Fin 6 → Fin 6 → ℝ) : Fin 6 → Fin 6 → ℝ := fun i j => c.wrench6 i / c.velocity6 j ^ 2 * D i j

/-- The same force model in the other units. -/
noncomputable def Push.scaled (c : Scale) : Push → Push
  | .gravity M g => .gravity (c.inertia M) (c.length / c.time ^ 2 * g)
  | .linearDamping P D => .linearDamping (c.length • P) (c.damping D)
  | .quadraticDamping P D => .quadraticDamping (c.length • P) (c.damping2 D)
  | .resistance P R => .resistance (c.length • P) (fun u => c.force * R (u / c.speed))
  | .bodyForce f m P => .bodyForce (c.force • f) (c.torque • m) (c.length • P)
  | .nedForce f m P => .nedForce (c.force • f) (c.torque • m) (c.length • P)

/-- The same controller in the other units. -/
noncomputable def Control.scaled (c : Scale) : Control → Control
  | .stationKeeping I psiOf k xCo yCo psiCo =>
    .stationKeeping (c.inertia I) psiOf { k with TX := c.time * k.TX, TY := c.time * k.TY, TPsi := c.time * k.TPsi } (c.length * xCo) (c.length * yCo) psiCo
  | .heading I psiOf name ksi Tp psiCo => .heading (c.inertia I) psiOf name ksi (c.time * Tp) psiCo

/-- The controller is a station-keeping controller. -/
def Control.KeepsStation : Control → Prop
  | .stationKeeping .. => True
  | .heading .. => False

/-- `b'` is the body `b` in the other units: centre of gravity, inverse of the inertia, Coriolis forces. -/
structure IsScaled (c : Scale) (b b' : Multi.MBody ℝ) : Prop where
  G : b'.G = c.length • b.G
  inertia : ∀ i j, b'.Minv i j = c.acceleration6 i / c.wrench6 j * b.Minv i j
  coriolis : ∀ u w, b'.coriolis (c.speed • u) (c.rate • w) = (c.force • (b.coriolis u w).1, c.torque • (b.coriolis u w).2)

/-- The same rudder in the other units. -/
noncomputable def Scale.rudder (c : Scale) (r : Forces.Rudder) : Forces.Rudder where
  Ar := c.length ^ 2 * r.Ar
  b := c.length * r.b
  aspect := r.aspect
  liftCoeff := r.liftCoeff
  dragCoeff := r.dragCoeff
  D := c.length * r.D
  rho := c.density * r.rho
  nu := c.viscosity * r.nu
  distance := c.length * r.distance
  offset := c.length • r.offset

end Xdyn.Sim
