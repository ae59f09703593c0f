import Verif.Model.Body
import Mathlib.Data.Real.Sqrt

/-
Model of code/force_models/src/GMForceModel.cpp and calculate_gz.cpp, and of what the force
models of a body share during an evaluation (core/src/Sim.cpp:127-135 and 145-176).

The hydrostatic model and the computation of the immersed part of the hull are parameters
(they are modelled in Model/Hydrostatic.lean and Model/Mesh.lean); the thirteen states other
than the quaternion are the same in all the calls and left implicit, and the attitude kept by
`BodyStates` is its rotation matrix (`get_rot_from_ned_to_body`, BodyStates.cpp:100-103).
-/

namespace Xdyn.GM

open Body

/-- `Eigen::Vector3d::norm`. -/
noncomputable def norm (v : Vec3 ℝ) : ℝ := Real.sqrt (v 0 * v 0 + v 1 * v 1 + v 2 * v 2)

/-- `calculate_gz(body2ned, force)`, calculate_gz.cpp:11-21: `R` is the rotation of the
transform, `F` and `M` the force and the torque in the NED frame. -/
noncomputable def calculateGz (R : Mat3 ℝ) (F M : Vec3 ℝ) : ℝ :=
  let X := R.mulVec ![1, 0, 0]
  (X 0 * M 0 + X 1 * M 1) / F 2 / norm X

/-- What the force models of a body share, through pointers: the attitude of the body in
`env.k` and the immersed part of its hull (`states.intersector`). -/
structure Shared (I : Type) where
  R : Mat3 ℝ
  wet : I

/-- A hydrostatic force model: `operator()(states, t)`, giving a wrench at `G` in the body
frame; the second argument is the attitude in `states`. -/
abbrev HsModel (I : Type) := Shared I → Mat3 ℝ → Vec3 ℝ × Vec3 ℝ

/-- `Body::update` (Body.cpp:108-127) as far as it changes what is shared: `update_kinematics`
(lines 64-68) and `update_intersection_with_free_surface`. -/
def bodyUpdate {I : Type} (immersed : Mat3 ℝ → I) (q : Mat3 ℝ) : Shared I := ⟨q, immersed q⟩

/-- `calculate_gz(F, env)`, calculate_gz.cpp:23-26, after `F.update(states, t)`
(ForceModel.cpp:30-35). -/
noncomputable def gzOf {I : Type} (hs : HsModel I) (s : Shared I) (q : Mat3 ℝ) : ℝ :=
  let W := hs s q
  let ned := projectIntoNed q W.1 W.2
  calculateGz s.R ned.1 ned.2

/-- Result of `GMForceModel::operator()`: the state shared with the other models, the wrench
and the two observed values. -/
structure Out (I : Type) where
  shared : Shared I
  wrench : Vec3 ℝ × Vec3 ℝ
  GM : ℝ
  GZ : ℝ

/-- `GMForceModel::operator()`, GMForceModel.cpp:111-120, with `get_gz_for_shifted_states`,
101-109; `shift` is `get_shifted_states` (86-99): Euler angles, roll minus `dphi`, quaternion. -/
noncomputable def gmCall {I : Type} (immersed : Mat3 ℝ → I) (hs : HsModel I) (shift : Mat3 ℝ → Mat3 ℝ) (dphi : ℝ)
    (s : Shared I) (q : Mat3 ℝ) : Out I :=
  let ret := hs s q
  let gz1 := gzOf hs s q
  let q' := shift q
  let s' := bodyUpdate immersed q'
  let gz2 := gzOf hs s' q'
  { shared := s', wrench := ret, GM := (gz1 - gz2) / dphi, GZ := (gz1 + gz2) / 2 }

/-- A force model of the list of a body, as seen by `Sim::sum_of_forces`: it gives a wrench in
the body frame and may change what is shared. -/
abbrev Model (I : Type) := Shared I → Mat3 ℝ → Shared I × (Vec3 ℝ × Vec3 ℝ)

/-- The loop of `Sim::sum_of_forces`, Sim.cpp:152-168 (wrenches in the body frame). -/
def sumOfForces {I : Type} (q : Mat3 ℝ) : List (Model I) → Shared I → Vec3 ℝ × Vec3 ℝ → Shared I × (Vec3 ℝ × Vec3 ℝ)
  | [], s, W => (s, W)
  | m :: l, s, W =>
    let r := m s q
    sumOfForces q l r.1 (W.1 + r.2.1, W.2 + r.2.2)

/-- The first three derivatives computed by `Body::calculate_state_derivatives`
(Body.cpp:140-146) at the end of `Sim::dx_dt` (Sim.cpp:127-135): `uvw` are the velocities. -/
def positionRates {I : Type} (immersed : Mat3 ℝ → I) (models : List (Model I)) (q : Mat3 ℝ) (uvw : Vec3 ℝ) : Vec3 ℝ :=
  (sumOfForces q models (bodyUpdate immersed q) (0, 0)).1.R.mulVec uvw

/-- `GMForceModel` in the list of a body. -/
noncomputable def gmModel {I : Type} (immersed : Mat3 ℝ → I) (hs : HsModel I) (shift : Mat3 ℝ → Mat3 ℝ) (dphi : ℝ) : Model I :=
  fun s q => ((gmCall immersed hs shift dphi s q).shared, (gmCall immersed hs shift dphi s q).wrench)

/-- `GravityForceModel` in the list of a body: it reads the attitude in `env.k`
(GravityForceModel.cpp:25). -/
noncomputable def gravityModel {I : Type} (inertia : Mat6 ℝ) (g : ℝ) : Model I := fun s _ => (s, gravity inertia g s.R)

end Xdyn.GM
