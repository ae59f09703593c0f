import Verif.Model.Integrators
import Verif.Model.Forces

/-
The force models `linear damping`, `quadratic damping`, `resistance curve` and `constant force`
(force_models/src) as force models of a simulation (Model/MultiBody), on top of the laws of
Model/Forces.  They read the states with `BodyStates::u()`..., which is the value of the histories at the present
date.
-/

namespace Xdyn.Sim

open Blocked Body

variable {K : Type} [Field K] [LinearOrder K] [IsStrictOrderedRing K]

/-- `W << states.u(), states.v(), states.w(), states.p(), states.q(), states.r()`, DampingForceModel.cpp:21-27. -/
def velocitiesOf (h : States (History K)) : Except Err (Fin 6 → K) := do
  return ![← h.u.value 0, ← h.v.value 0, ← h.w.value 0, ← h.p.value 0, ← h.q.value 0, ← h.r.value 0]

/-- A `Wrench` made of a point (whose frame is the one of the body) and a vector with six components. -/
def wrenchOf (b : Multi.MBody K) (P : Vec3 K) (tau : Fin 6 → K) : Multi.Wrench K :=
  ⟨b.name, P, ![tau 0, tau 1, tau 2], ![tau 3, tau 4, tau 5]⟩

/-- `DampingForceModel::operator()`, DampingForceModel.cpp:19-29, where `P` is the
`hydrodynamic_forces_calculation_point` of the body and `law` is `get_force_and_torque`. -/
def dampingModel (b : Multi.MBody K) (P : Vec3 K) (law : (Fin 6 → K) → Fin 6 → K) : Multi.Force K := fun h _ _ => do
  let W ← velocitiesOf h
  return wrenchOf b P (law W)

/-- `LinearDampingForceModel`, LinearDampingForceModel.cpp:18-25. -/
def linearDampingModel (b : Multi.MBody K) (P : Vec3 K) (D : Fin 6 → Fin 6 → K) : Multi.Force K :=
  dampingModel b P (Forces.linearDamping D)

/-- `QuadraticDampingForceModel`, QuadraticDampingForceModel.cpp:18-25. -/
def quadraticDampingModel (b : Multi.MBody K) (P : Vec3 K) (D : Fin 6 → Fin 6 → K) : Multi.Force K :=
  dampingModel b P (Forces.quadraticDamping D)

/-- `ResistanceCurveForceModel::operator()`, ResistanceCurveForceModel.cpp:58-63; `S` is the spline of the
resistances (external, SSC). -/
def resistanceModel (b : Multi.MBody K) (P : Vec3 K) (S : K → K) : Multi.Force K := fun h _ _ => do
  return wrenchOf b P (Forces.resistance S (← h.u.value 0))

/-- `ConstantForceModel::operator()`, ConstantForceModel.cpp:74-88: `frame` is the internal frame, `P` the point of
application. -/
def constantModel (b : Multi.MBody K) (frame : String) (force torque P : Vec3 K) : Multi.Force K := fun _ k _ => do
  let T ← k.get b.name frame
  let w := Forces.constantForce force torque P b.G T.R
  return ⟨b.name, b.G, w.1, w.2⟩

end Xdyn.Sim
