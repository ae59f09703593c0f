import Verif.Model.BlockedDof
import Mathlib.Data.Matrix.Mul
import Mathlib.LinearAlgebra.Matrix.Notation

/-
Model of core/src/Body.cpp (state derivatives), core/src/BodyStates.cpp (attitude),
core/src/Sim.cpp:94-110 (normalisation of the quaternions), force models whose formula is a
vector computation (gravity, damping), and
core/src/ControllableForceModel.cpp (transport of the wrench of a controlled force).

External: Eigen's vector, matrix and quaternion operations are Mathlib's matrices and the
formulas below; SSC's `Kinematics::get` gives the rotation matrix and position stored by
`Body::update_kinematics` (its inverse is the transposed matrix).
-/

namespace Xdyn.Body

variable {K : Type} [Field K]

abbrev Vec3 (K : Type) := Fin 3 → K
abbrev Mat3 (K : Type) := Matrix (Fin 3) (Fin 3) K
abbrev Vec6 (K : Type) := Fin 6 → K
abbrev Mat6 (K : Type) := Matrix (Fin 6) (Fin 6) K

/-- `Eigen::Vector3d::cross`. -/
def cross (a b : Vec3 K) : Vec3 K :=
  ![a 1 * b 2 - a 2 * b 1, a 2 * b 0 - a 0 * b 2, a 0 * b 1 - a 1 * b 0]

/-- `Eigen::Vector3d::dot`. -/
def dot (a b : Vec3 K) : K := a 0 * b 0 + a 1 * b 1 + a 2 * b 2

/-- `Eigen::Quaternion<double>`: real part and the three imaginary parts. -/
structure Quat (K : Type) where
  w : K
  x : K
  y : K
  z : K
deriving DecidableEq

/-- `Eigen::Quaternion::operator*` (Hamilton product). -/
def Quat.mul (a b : Quat K) : Quat K where
  w := a.w * b.w - a.x * b.x - a.y * b.y - a.z * b.z
  x := a.w * b.x + a.x * b.w + a.y * b.z - a.z * b.y
  y := a.w * b.y + a.y * b.w + a.z * b.x - a.x * b.z
  z := a.w * b.z + a.z * b.w + a.x * b.y - a.y * b.x

/-- `Eigen::Quaternion::matrix()` (`toRotationMatrix`). -/
def Quat.matrix (q : Quat K) : Mat3 K :=
  !![1 - (2 * q.y * q.y + 2 * q.z * q.z), 2 * q.y * q.x - 2 * q.z * q.w, 2 * q.z * q.x + 2 * q.y * q.w;
     2 * q.y * q.x + 2 * q.z * q.w, 1 - (2 * q.x * q.x + 2 * q.z * q.z), 2 * q.z * q.y - 2 * q.x * q.w;
     2 * q.z * q.x - 2 * q.y * q.w, 2 * q.z * q.y + 2 * q.x * q.w, 1 - (2 * q.x * q.x + 2 * q.y * q.y)]

/-- The quaternion of body `idx` in the state vector: `*_QR(x,idx)`... (StateMacros.hpp:40-43). -/
def quatOf (x : List K) (idx : Nat) : Except Err (Quat K) := do
  let w ← getUB x (QRIDX idx)
  let i ← getUB x (QIIDX idx)
  let j ← getUB x (QJIDX idx)
  let k ← getUB x (QKIDX idx)
  return { w := w, x := i, y := j, z := k }

/-- `BodyStates::get_rot_from_ned_to(x, idx)`, BodyStates.cpp:105-108. -/
def rotFromNedTo (x : List K) (idx : Nat) : Except Err (Mat3 K) := do
  return (← quatOf x idx).matrix

/-- `Body::get_origin(x)`, Body.cpp:34-39. -/
def getOrigin (x : List K) (idx : Nat) : Except Err (Vec3 K) := do
  return ![← getUB x (XIDX idx), ← getUB x (YIDX idx), ← getUB x (ZIDX idx)]

/-- `Body::calculate_state_derivatives` before line 160, Body.cpp:135-158.  `R` is the
rotation matrix of the transform from NED to the body (line 141). -/
def unforcedDerivatives (Minv : Mat6 K) (F : Vec6 K) (R : Mat3 K) (x dx : List K) (idx : Nat) :
    Except Err (List K) := do
  let dX := Minv.mulVec F
  let dx ← setUB dx (UIDX idx) (dX 0)
  let dx ← setUB dx (VIDX idx) (dX 1)
  let dx ← setUB dx (WIDX idx) (dX 2)
  let dx ← setUB dx (PIDX idx) (dX 3)
  let dx ← setUB dx (QIDX idx) (dX 4)
  let dx ← setUB dx (RIDX idx) (dX 5)
  let u ← getUB x (UIDX idx)
  let v ← getUB x (VIDX idx)
  let w ← getUB x (WIDX idx)
  let XpYpZp := R.mulVec ![u, v, w]
  let dx ← setUB dx (XIDX idx) (XpYpZp 0)
  let dx ← setUB dx (YIDX idx) (XpYpZp 1)
  let dx ← setUB dx (ZIDX idx) (XpYpZp 2)
  let q1 ← quatOf x idx
  let p ← getUB x (PIDX idx)
  let q ← getUB x (QIDX idx)
  let r ← getUB x (RIDX idx)
  let dq := Quat.mul q1 { w := 0, x := p, y := q, z := r }
  let dx ← setUB dx (QRIDX idx) (1 / 2 * dq.w)
  let dx ← setUB dx (QIIDX idx) (1 / 2 * dq.x)
  let dx ← setUB dx (QJIDX idx) (1 / 2 * dq.y)
  let dx ← setUB dx (QKIDX idx) (1 / 2 * dq.z)
  return dx

/-- `Body::calculate_state_derivatives`, Body.cpp:129-161. -/
def stateDerivatives [LinearOrder K] (b : Blocked.BlockedDof K) (Minv : Mat6 K) (F : Vec6 K) (R : Mat3 K)
    (x dx : List K) (t : K) (idx : Nat) : Except Err (List K) := do
  let dx ← unforcedDerivatives Minv F R x dx idx
  Blocked.forceStateDerivatives b dx t

/-- `GravityForceModel::operator()`, GravityForceModel.cpp:23-30: force and torque at `G`;
`R` is the attitude (from NED to body), so the rotation of the transform from the body to NED
is its transpose. -/
def gravity (inertia : Mat6 K) (g : K) (R : Mat3 K) : Vec3 K × Vec3 K :=
  (R.transpose.mulVec ![0, 0, inertia 2 2 * g], ![0, 0, 0])

/-- `GravityForceModel::potential_energy`, GravityForceModel.cpp:32-36. -/
def gravityPotentialEnergy (inertia : Mat6 K) (g : K) (x : List K) : Except Err K := do
  return -(inertia 2 2) * g * (← getUB x 2)

/-- `LinearDampingForceModel::get_force_and_torque`, LinearDampingForceModel.cpp:22-25. -/
def linearDamping (D : Mat6 K) (W : Vec6 K) : Vec6 K := (-D).mulVec W

/-- `QuadraticDampingForceModel::get_force_and_torque`, QuadraticDampingForceModel.cpp:22-25. -/
def quadraticDamping [LinearOrder K] (D : Mat6 K) (W : Vec6 K) : Vec6 K :=
  (-D).mulVec (fun i => |W i| * W i)

/-- `ForceModel::project_into_NED_frame`, ForceModel.cpp:37-40. -/
def projectIntoNed (R : Mat3 K) (force torque : Vec3 K) : Vec3 K × Vec3 K :=
  (R.mulVec force, R.mulVec torque)

/-- `ControllableForceModel::operator()`, ControllableForceModel.cpp:53-76: wrench at `G` in
the body frame, from the wrench (force, torque) at the origin `P` of the internal frame;
`R` and `OP` are the rotation and position of the transform from the body frame to the
internal frame. -/
def controlledWrenchAtG (R : Mat3 K) (OP G : Vec3 K) (force torque : Vec3 K) : Vec3 K × Vec3 K :=
  let GP := -G + OP
  let f := R.mulVec force
  (f, R.mulVec torque + cross GP f)

/-- First half of `ControllableForceModel::feed`, ControllableForceModel.cpp:140-152: wrench
at `P` in the internal frame from the wrench in the body frame; `G` is the argument given to
`feed`. -/
def feedInternal (R : Mat3 K) (O1P G : Vec3 K) (tau : Vec3 K × Vec3 K) : Vec3 K × Vec3 K :=
  let PG := G - O1P
  (R.transpose.mulVec tau.1, R.transpose.mulVec (tau.2 + cross PG tau.1))

/-- `Sim::output` (Sim.cpp:217-218) calls `feed` with `G = body->get_origin(x)`. -/
def observedInternal (R : Mat3 K) (O1P : Vec3 K) (x : List K) (idx : Nat) (tau : Vec3 K × Vec3 K) :
    Except Err (Vec3 K × Vec3 K) := do
  let G ← getOrigin x idx
  return feedInternal R O1P G tau

end Xdyn.Body
