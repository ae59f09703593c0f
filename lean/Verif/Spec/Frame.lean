import Verif.Spec.Control

/-! The same body seen from other axes: axes with another origin, axes turned about the vertical, and a mirror. -/

namespace Xdyn.Sim

open Blocked Body

/-! ### Another origin -/

/-- The states of a body when the origin of the axes is moved by `-d`. -/
def shiftedStates (d : Vec3 ℝ) : List ℝ → List ℝ
  | [x, y, z, u, v, w, p, q, r, qr, qi, qj, qk] => [x + d 0, y + d 1, z + d 2, u, v, w, p, q, r, qr, qi, qj, qk]
  | s => s

/-- The same set points from another origin. -/
def Control.shifted (d : Vec3 ℝ) : Control → Control
  | .stationKeeping I psiOf c xCo yCo psiCo => .stationKeeping I psiOf c (xCo + d 0) (yCo + d 1) psiCo
  | .heading I psiOf name ksi Tp psiCo => .heading I psiOf name ksi Tp psiCo

/-! ### A mirror -/

/-- The image of a vector (position, velocity, force) in the plane y = 0. -/
def mirrorVec (v : Vec3 ℝ) : Vec3 ℝ := ![v 0, -v 1, v 2]

/-- The image of a rate of turn or of a torque. -/
def mirrorTurn (w : Vec3 ℝ) : Vec3 ℝ := ![-w 0, w 1, -w 2]

/-- The image of an attitude. -/
def mirrorQuat (q : Quat ℝ) : Quat ℝ := ⟨q.w, -q.x, q.y, -q.z⟩

/-- The states of the image of a body. -/
def mirrorStates : List ℝ → List ℝ
  | [x, y, z, u, v, w, p, q, r, qr, qi, qj, qk] => [x, -y, z, u, -v, w, -p, q, -r, qr, -qi, qj, -qk]
  | s => s

/-- Signs of the six components of a velocity or of a force in a mirror. -/
def mirrorSign : Fin 6 → ℝ := ![1, -1, 1, -1, 1, -1]

/-- The image of a matrix. -/
def mirrorMatrix (D : Fin 6 → Fin 6 → ℝ) : Fin 6 → Fin 6 → ℝ := fun i j => mirrorSign i * D i j * mirrorSign j

/-- The image of a force model. -/
def Push.mirrored : Push → Push
  | .gravity M g => .gravity M g
  | .linearDamping P D => .linearDamping (mirrorVec P) (mirrorMatrix D)
  | .quadraticDamping P D => .quadraticDamping (mirrorVec P) (mirrorMatrix D)
  | .resistance P R => .resistance (mirrorVec P) R
  | .bodyForce f m P => .bodyForce (mirrorVec f) (mirrorTurn m) (mirrorVec P)
  | .nedForce f m P => .nedForce (mirrorVec f) (mirrorTurn m) (mirrorVec P)

/-- `b'` is the image of the body `b`: centre of gravity, inertia, Coriolis forces. -/
structure IsMirror (b b' : Multi.MBody ℝ) : Prop where
  G : b'.G = mirrorVec b.G
  inertia : ∀ i j, b'.Minv i j = mirrorSign i * b.Minv i j * mirrorSign j
  coriolis : ∀ u w, b'.coriolis (mirrorVec u) (mirrorTurn w) = (mirrorVec (b.coriolis u w).1, mirrorTurn (b.coriolis u w).2)

/-! ### Axes turned about the vertical -/

/-- Coordinates of a vector that is turned by `a` about the vertical. -/
noncomputable def turnedVec (a : ℝ) (v : Vec3 ℝ) : Vec3 ℝ :=
  ![Real.cos a * v 0 - Real.sin a * v 1, Real.sin a * v 0 + Real.cos a * v 1, v 2]

/-- The attitude of a body that is turned by `a` about the vertical. -/
noncomputable def turnedQuat (a : ℝ) (q : Quat ℝ) : Quat ℝ := Quat.mul ⟨Real.cos (a / 2), 0, 0, Real.sin (a / 2)⟩ q

/-- The states of a body that is turned by `a` about the vertical axis of the origin: the velocities are in the axes of the body. -/
noncomputable def turnedStates (a : ℝ) : List ℝ → List ℝ
  | [x, y, z, u, v, w, p, q, r, qr, qi, qj, qk] =>
    let P := turnedVec a ![x, y, z]
    let Q := turnedQuat a ⟨qr, qi, qj, qk⟩
    [P 0, P 1, P 2, u, v, w, p, q, r, Q.w, Q.x, Q.y, Q.z]
  | s => s

/-- The same force models, the constant forces in NED being turned. -/
noncomputable def Push.turned (a : ℝ) : Push → Push
  | .nedForce f m P => .nedForce (turnedVec a f) (turnedVec a m) P
  | f => f

/-- The constant forces in NED are applied at the centre of gravity. -/
def Push.Central (G : Vec3 ℝ) : Push → Prop
  | .nedForce _ _ P => P = G
  | _ => True

end Xdyn.Sim
