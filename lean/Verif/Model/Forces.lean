/-
Model of the force models of code/force_models/src (rudder, propellers, controllers, damping,
gravity, constant force, linear hydrostatics, hydrostatic, GZ) and of the transport of controlled
forces (code/core/src/ControllableForceModel.cpp).

Vectors are functions on `Fin 3` or `Fin 6`; rotation matrices come from the `ssc` library and are
parameters (`R i j`); `k->get(A, B).get_rot()` changes coordinates from frame B to frame A.
-/
import Mathlib.Analysis.SpecialFunctions.Complex.Arg
import Mathlib.Analysis.SpecialFunctions.Trigonometric.Arctan
import Mathlib.Analysis.SpecialFunctions.Log.Basic
import Mathlib.Analysis.SpecialFunctions.Sqrt
import Mathlib.Algebra.BigOperators.Fin
import Verif.Model.Common
import Verif.Model.Hdb

namespace Xdyn.Forces
open Xdyn.Hdb (cross)

section
variable {K : Type} [Field K] [LinearOrder K]

/-- 3x3 matrix times vector (Eigen) -/
def mulVec3 (R : Fin 3 → Fin 3 → K) (v : Fin 3 → K) : Fin 3 → K := fun i => ∑ j, R i j * v j

/-- 6x6 matrix times vector (Eigen) -/
def mulVec6 (D : Fin 6 → Fin 6 → K) (v : Fin 6 → K) : Fin 6 → K := fun i => ∑ j, D i j * v j

/-! ### Controlled forces -/

/-- ControllableForceModel::operator(), core/src/ControllableForceModel.cpp:55-75: wrench `F` in the
internal frame, `R` the rotation from the internal frame to the body frame, `OP` the origin of the
internal frame in the body frame, `G` the point where forces are summed. -/
def transport (F : Fin 6 → K) (R : Fin 3 → Fin 3 → K) (OP G : Fin 3 → K) :
    (Fin 3 → K) × (Fin 3 → K) :=
  let force : Fin 3 → K := ![F 0, F 1, F 2]
  let torque : Fin 3 → K := ![F 3, F 4, F 5]
  let GP : Fin 3 → K := fun i => -(G i) + OP i
  let forceG := mulVec3 R force
  (forceG, fun i => mulVec3 R torque i + cross GP forceG i)

/-! ### Damping -/

/-- LinearDampingForceModel::get_force_and_torque, LinearDampingForceModel.cpp:22-25 -/
def linearDamping (D : Fin 6 → Fin 6 → K) (W : Fin 6 → K) : Fin 6 → K := fun i => -(mulVec6 D W i)

/-- QuadraticDampingForceModel::get_force_and_torque, QuadraticDampingForceModel.cpp:22-25 -/
def quadraticDamping (D : Fin 6 → Fin 6 → K) (W : Fin 6 → K) : Fin 6 → K :=
  fun i => -(mulVec6 D (fun j => |W j| * W j) i)

/-- ResistanceCurveForceModel::operator(), ResistanceCurveForceModel.cpp:58-63; `S` is the spline. -/
def resistance (S : K → K) (u : K) : Fin 6 → K := ![-(S u), 0, 0, 0, 0, 0]

/-! ### Gravity -/

/-- GravityForceModel::operator(), GravityForceModel.cpp:23-30: force in the body frame, applied at
G, where `R` is the rotation from NED to body and `M` the solid body inertia matrix. -/
def gravity (M : Fin 6 → Fin 6 → K) (g : K) (R : Fin 3 → Fin 3 → K) : Fin 3 → K :=
  mulVec3 R ![0, 0, M 2 2 * g]

/-! ### Constant force -/

/-- ConstantForceModel::operator(), ConstantForceModel.cpp:74-88: `R` is the rotation from the
internal frame to the body frame, `P` the point of application (YAML coordinates, in the internal
frame), `G` the centre of gravity in the body frame. -/
def constantForce (force torque P G : Fin 3 → K) (R : Fin 3 → Fin 3 → K) :
    (Fin 3 → K) × (Fin 3 → K) :=
  let GP : Fin 3 → K := fun i => -(G i) + P i
  (mulVec3 R force, mulVec3 R (fun i => torque i + cross GP force i))

/-! ### Hydrostatics by immersed volume -/

/-- HydrostaticForceModel::operator(), HydrostaticForceModel.cpp:30-64: `V`, `B` immersed volume and
centre of buoyancy (body frame) given by the mesh intersector, `flat` tells that all facets are in
the same plane, `R` is the rotation from NED to body.  Force and torque at G in the body frame
(`change_frame_but_keep_ref_point` rotates force and torque; `change_point_of_application` adds
GB x force). -/
def hydrostatic (rho g V : K) (flat : Bool) (B G : Fin 3 → K) (R : Fin 3 → Fin 3 → K) :
    (Fin 3 → K) × (Fin 3 → K) :=
  let V := if flat then 0 else V
  let force := mulVec3 R ![0, 0, -rho * g * V]
  let torque := mulVec3 R (fun _ => 0)
  (force, fun i => torque i + cross (fun j => B j - G j) force i)

/-! ### Controllers -/

/-- SimpleHeadingKeepingController::get_force, SimpleHeadingKeepingController.cpp:46-57: torque about
z; `I` is the total inertia matrix (line 52 reads its entry (2,2)). -/
def headingController (I : Fin 6 → Fin 6 → K) (ksi omega0 psiCo psi r : K) : K :=
  let deltaPsi := psiCo - psi
  let sigma := I 2 2
  let Kpsi := sigma * omega0 * omega0
  let Kr := 2 * ksi * omega0 * sigma
  Kpsi * deltaPsi - Kr * r

/-- SimpleStationKeepingController::get_force, SimpleStationKeepingController.cpp:63-84: the wrench in
the body frame (the internal frame of the controller is the body frame, line 51). -/
def stationKeeping (I : Fin 6 → Fin 6 → K) (ksiX omegaX ksiY omegaY ksiPsi omegaPsi : K)
    (xCo yCo psiCo x y psi u v r : K) : Fin 6 → K :=
  let Kx := I 0 0 * omegaX * omegaX
  let Ku := 2 * ksiX * omegaX * I 0 0
  let Ky := I 1 1 * omegaY * omegaY
  let Kv := 2 * ksiY * omegaY * I 1 1
  let Kpsi := I 5 5 * omegaPsi * omegaPsi
  let Kr := 2 * ksiPsi * omegaPsi * I 5 5
  ![Kx * (xCo - x) - Ku * u, Ky * (yCo - y) - Kv * v, 0, 0, 0, Kpsi * (psiCo - psi) - Kr * r]

/-! ### Propellers -/

/-- A double obtained by a division: a number, an infinity or NaN. -/
inductive Ratio (K : Type) where
  | num (x : K)
  | posInf
  | negInf
  | nan
deriving DecidableEq, Repr

/-- Division of doubles, with a positive zero as denominator. -/
def divide (a b : K) : Ratio K :=
  if b = 0 then (if 0 < a then .posInf else if a < 0 then .negInf else .nan) else .num (a / b)

/-- AbstractWageningen::advance_ratio, AbstractWageningen.cpp:50-55: `(1-w)*Va/n/D` with
`Va = |u|`, `n` in turns per second. -/
def advanceRatio (w u n D : K) : Ratio K :=
  match divide ((1 - w) * |u|) n with
  | .num x => divide x D
  | r => r

/-- saturate, WageningenControlledForceModel.cpp:94-97: `std::max(std::min(J,1.5),0.)`, where
`std::min(a,b)` is `b<a ? b : a` and `std::max(a,b)` is `a<b ? b : a` (comparisons with NaN are
false). -/
def saturate : Ratio K → Ratio K
  | .num J => .num (max (min J (3 / 2)) 0)
  | .posInf => .num (3 / 2)
  | .negInf => .num 0
  | .nan => .nan

/-- One term of the polynomials, WageningenControlledForceModel.cpp:106, 118: coefficient and
exponents of J, P/D, AE/A0 and Z. -/
structure Monomial (K : Type) where
  c : K
  s : Nat
  t : Nat
  u : Nat
  v : Nat

/-- WageningenControlledForceModel::Kt and Kq, WageningenControlledForceModel.cpp:99-121.  The
coefficients are parameters; a NaN advance ratio gives NaN (at least one exponent of J is not zero
in both tables). -/
def polynomial (l : List (Monomial K)) (Z : Nat) (AE_A0 P_D : K) (J : Ratio K) : Ratio K :=
  match saturate J with
  | .num j => .num (l.foldl (fun acc m => acc + m.c * j ^ m.s * P_D ^ m.t * AE_A0 ^ m.u * (Z : K) ^ m.v) 0)
  | r => r

/-- Constructor of WageningenControlledForceModel, WageningenControlledForceModel.cpp:62-70 -/
def checkWageningen (Z : Nat) (AE_A0 : K) : Except Err Unit :=
  if Z < 2 ∨ 7 < Z then .error (.throw "InvalidInput")
  else if AE_A0 < 3 / 10 ∨ 105 / 100 < AE_A0 then .error (.throw "InvalidInput")
  else .ok ()

/-- AbstractWageningen::get_force, AbstractWageningen.cpp:57-77: thrust and torque, from the
coefficients Kt(J), Kq(J); `n` turns per second (`rpm/(2*PI)`). A non-number coefficient gives a
non-number force, because 0 times NaN or infinity is NaN. -/
def propeller (rho w etaR t D : K) (clockwise : Bool) (Kt Kq : Ratio K → Ratio K) (u n : K) :
    Ratio K × Ratio K :=
  let J := advanceRatio w u n D
  let n2 := n * n
  let kappa : K := if clockwise then -1 else 1
  let scale (a : K) (r : Ratio K) : Ratio K := match r with
    | .num x => .num (a * x)
    | _ => .nan
  (scale ((1 - t) * rho * n2 * (D * D * D * D)) (Kt J),
   scale (kappa * etaR * rho * n2 * (D * D * D * D * D)) (Kq J))

/-- calculate_gz, calculate_gz.cpp:11-21: `X` is the x axis of the body in NED coordinates, `norm`
its norm, `F` and `M` force and torque (at the centre of gravity) in NED coordinates. -/
def calculateGz (X : Fin 3 → K) (norm : K) (F M : Fin 3 → K) : K :=
  (X 0 * M 0 + X 1 * M 1) / F 2 / norm

end

/-! ### Rudder -/

/-- The parameters of RudderForceModel::RudderModel, RudderForceModel.cpp:46-60 -/
structure Rudder where
  Ar : ℝ
  b : ℝ
  aspect : ℝ
  liftCoeff : ℝ
  dragCoeff : ℝ
  D : ℝ
  rho : ℝ
  nu : ℝ
  /-- distance between rudder and screw along x -/
  distance : ℝ
  /-- propeller position minus rudder position -/
  offset : Fin 3 → ℝ

namespace Rudder

/-- RudderForceModel.cpp:48 -/
noncomputable def chord (r : Rudder) : ℝ := r.Ar / r.b

/-- RudderForceModel.cpp:49 -/
noncomputable def lambda (r : Rudder) : ℝ := r.aspect * r.b * r.b / r.Ar

/-- RudderForceModel.cpp:58-59 (for a non-zero distance) -/
noncomputable def Kr (r : Rudder) : ℝ := 0.5 + 0.5 / (1 + 0.15 / |r.distance / r.D|)

/-- RudderModel::get_Ar, RudderForceModel.cpp:181-191: areas in and outside of the wake -/
noncomputable def getAr (r : Rudder) (CTh : ℝ) : ℝ × ℝ :=
  let Cj := 1 + r.Kr * (Real.sqrt (1 + CTh) - 1)
  let Dwake := r.D * Real.sqrt ((1 + 0.5 * (Real.sqrt (1 + CTh) - 1)) / Cj)
  let inWake := min r.Ar (r.chord * Dwake)
  (inWake, r.Ar - inWake)

/-- Reduction factor RF of RudderModel::get_vs, RudderForceModel.cpp:135 -/
noncomputable def reductionFactor (CTh : ℝ) : ℝ :=
  if 13.71742 < CTh then 0.5 else 1 - 0.135 * Real.sqrt CTh

/-- RudderModel::get_Cl, RudderForceModel.cpp:83-87 -/
noncomputable def Cl (r : Rudder) (alpha : ℝ) : ℝ :=
  2 * Real.pi * r.lambda * (r.lambda + 1) / (r.lambda + 2) / (r.lambda + 2) * Real.sin alpha

/-- RudderModel::get_Cd, RudderForceModel.cpp:69-81 -/
noncomputable def Cd (r : Rudder) (Vs Cl : ℝ) : ℝ :=
  let Rn := Vs * r.chord / r.nu
  let Cf := 0.075 / (Real.log Rn / Real.log 10 - 2) ^ 2
  let Cd0 := 2.5 * Cf
  1.1 * Cl * Cl / (Real.pi * r.lambda) + Cd0

/-- RudderModel::get_lift, RudderForceModel.cpp:89-96 -/
noncomputable def lift (r : Rudder) (Vs Cl alpha area : ℝ) : ℝ :=
  0.5 * r.rho * area * Vs * Vs * Cl * Real.cos alpha * r.liftCoeff

/-- RudderModel::get_drag, RudderForceModel.cpp:98-105 -/
noncomputable def drag (r : Rudder) (Vs Cd area : ℝ) : ℝ :=
  0.5 * r.rho * area * Vs * Vs * Cd * r.dragCoeff

/-- RudderModel::get_force, RudderForceModel.cpp:107-125 -/
noncomputable def force (r : Rudder) (lift drag angle : ℝ) : (Fin 3 → ℝ) × (Fin 3 → ℝ) :=
  let f : Fin 3 → ℝ := ![-lift * Real.sin angle - drag * Real.cos angle,
    lift * Real.cos angle - drag * Real.sin angle, 0]
  (f, fun i => -(cross r.offset f i))

/-- RudderModel::get_wrench, RudderForceModel.cpp:167-179 -/
noncomputable def wrench (r : Rudder) (rudderAngle fluidAngle Vs area : ℝ) :
    (Fin 3 → ℝ) × (Fin 3 → ℝ) :=
  let alpha := rudderAngle - fluidAngle
  let Cl := r.Cl alpha
  let lift := r.lift Vs Cl alpha area
  let Cd := r.Cd Vs Cl
  let drag := r.drag Vs Cd area
  r.force lift drag fluidAngle

/-- RudderModel::get_vs, RudderForceModel.cpp:127-147: velocity of the ship relative to the water in and outside of the wake of the propeller
(`T` thrust; the third coordinates are left at zero by the constructor of `Point`). -/
noncomputable def getVs (r : Rudder) (CTh Va v T : ℝ) : (ℝ × ℝ) × (ℝ × ℝ) :=
  let Vchange := Real.sqrt (Va * Va + 8 / Real.pi * T / (r.rho * r.D * r.D)) - Va
  (((Va + r.Kr * Vchange) * reductionFactor CTh, v), (Va, v))

/-- RudderModel::get_fluid_angle, RudderForceModel.cpp:146-153: `atan2(y, x)` is the argument of `x + iy` (signed zeros are not modelled). -/
noncomputable def fluidAngle (V : ℝ × ℝ) : ℝ := Complex.arg ⟨V.1, V.2⟩

/-- `Vs.in_wake.v.norm()`, RudderForceModel.cpp:162-163 -/
noncomputable def speed (V : ℝ × ℝ) : ℝ := Real.sqrt (V.1 * V.1 + V.2 * V.2)

/-- Thrust loading coefficient, RudderForceModel.cpp:208-211 -/
noncomputable def loading (r : Rudder) (Va T : ℝ) : ℝ :=
  let DVa := r.D * Va
  if |DVa| < 1e-10 then 8e20 / Real.pi * T / r.rho else 8 / Real.pi * T / (r.rho * DVa * DVa)

/-- RudderForceModel::get_rudder_force, RudderForceModel.cpp:206-219: wrenches in and outside of the wake (the caller adds them).
`w` wake coefficient, `u`, `v` velocity of the ship, `beta` rudder angle, `T` thrust. -/
noncomputable def rudderWrenches (r : Rudder) (w u v beta T : ℝ) :
    ((Fin 3 → ℝ) × (Fin 3 → ℝ)) × ((Fin 3 → ℝ) × (Fin 3 → ℝ)) :=
  let Va := u * (1 - w)
  let CTh := r.loading Va T
  let Vs := r.getVs CTh Va v T
  let area := r.getAr CTh
  (r.wrench beta (fluidAngle Vs.1) (speed Vs.1) area.1, r.wrench beta (fluidAngle Vs.2) (speed Vs.2) area.2)

/-- RudderForceModel::get_force, RudderForceModel.cpp:221-231: `prop` is the wrench of the propeller (6 components); the thrust given to the rudder
is the norm of these six components; the result of `change_point_of_application` is not used. -/
noncomputable def totalWrench (r : Rudder) (w u v beta : ℝ) (prop : Fin 6 → ℝ) : (Fin 3 → ℝ) × (Fin 3 → ℝ) :=
  let W := r.rudderWrenches w u v beta (Real.sqrt (∑ i, prop i * prop i))
  (fun i => W.1.1 i + W.2.1 i + ![prop 0, prop 1, prop 2] i, fun i => W.1.2 i + W.2.2 i + ![prop 3, prop 4, prop 5] i)

end Rudder

/-! ### Linear hydrostatics -/

/-- LinearHydrostaticForceModel::compute_zbar, compute_phibar, compute_thetabar,
LinearHydrostaticForceModel.cpp:86-99 (`z` the wave heights at the four points). -/
noncomputable def zbar (z : Fin 4 → ℝ) : ℝ := 0.25 * (z 0 + z 1 + z 2 + z 3)
noncomputable def phibar (d12 d34 : ℝ) (z : Fin 4 → ℝ) : ℝ :=
  0.5 * (Real.arctan (z 1 - z 0) / d12 + Real.arctan (z 3 - z 2) / d34)
noncomputable def thetabar (d24 d13 : ℝ) (z : Fin 4 → ℝ) : ℝ :=
  0.5 * (Real.arctan (z 1 - z 3) / d24 + Real.arctan (z 0 - z 2) / d13)

/-- LinearHydrostaticForceModel::operator(), LinearHydrostaticForceModel.cpp:123-136: heave force,
roll and pitch torques. -/
noncomputable def linearHydrostatic (Km : Fin 3 → Fin 3 → ℝ) (zEq phiEq thetaEq d12 d34 d24 d13 : ℝ)
    (zw : Fin 4 → ℝ) (z phi theta : ℝ) : Fin 3 → ℝ :=
  let v : Fin 3 → ℝ := ![z - zbar zw - zEq, phi - phibar d12 d34 zw - phiEq,
    theta - thetabar d24 d13 zw - thetaEq]
  fun i => -(mulVec3 Km v i)

end Xdyn.Forces
