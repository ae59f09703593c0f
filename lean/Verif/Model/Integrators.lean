import Verif.Model.MultiBody

/-
Model of the solvers used by `xdyn` (executables/src/xdyn.cpp:36-54) and by the co-simulation
(observers_and_api/src/SimStepper.cpp:63-78), and of a simulation of one body with its force
models (Model/MultiBody) as the system they integrate (Model/Sim).

External: `ssc::solver::EulerStepper`, `RK4Stepper` and `RKCK` are the explicit Runge-Kutta methods
of boost odeint (`euler`, `runge_kutta4`, `runge_kutta_cash_karp54`), whose `do_step` evaluates the
system once per stage, in the order of the stages; it takes the system by value, so that the
evaluations do not change the state from which the step starts.
-/

namespace Xdyn.Sim

open Blocked Body

variable {K : Type} [Field K] [LinearOrder K] [IsStrictOrderedRing K]

/-- An explicit Runge-Kutta method: date `c` and coefficients `a` of every stage, weights `b` of
the result. -/
structure Tableau (K : Type) where
  stages : List (K × List K)
  weights : List K

/-- `x + dt (a1 k1 + a2 k2 + ...)` (boost odeint, `scale_sum`). -/
def combine (dt : K) : List K → List K → List (List K) → List K
  | x, a :: as, k :: ks => combine dt (List.zipWith (fun xi ki => xi + dt * a * ki) x k) as ks
  | x, _, _ => x

/-- The stages that remain, once the derivatives `ks` have been computed. -/
def Tableau.from (w : List K) (x : List K) (t dt : K) : List (K × List K) → List (List K) → Stepper K
  | [], ks => .done (combine dt x w ks)
  | (c, a) :: rest, ks =>
    .call (combine dt x a ks) (t + c * dt) (fun dx _ => Tableau.from w x t dt rest (ks ++ [dx]))

/-- `stepper.do_step(sys, sys.state, t, dt)`, solver.hpp:37. -/
def Tableau.stepper (T : Tableau K) (x : List K) (t dt : K) : Stepper K :=
  Tableau.from T.weights x t dt T.stages []

/-- `ssc::solver::EulerStepper`: xdyn.cpp:38-41, SimStepper.cpp:63-66. -/
def eulerMethod : Tableau K where
  stages := [(0, [])]
  weights := [1]

/-- `ssc::solver::RK4Stepper`: xdyn.cpp:42-45, SimStepper.cpp:67-70. -/
def rk4Method : Tableau K where
  stages := [(0, []), (1 / 2, [1 / 2]), (1 / 2, [0, 1 / 2]), (1, [0, 0, 1])]
  weights := [1 / 6, 1 / 3, 1 / 3, 1 / 6]

/-- `ssc::solver::RKCK` (Cash and Karp): xdyn.cpp:46-49, SimStepper.cpp:71-74. -/
def rkckMethod : Tableau K where
  stages := [(0, []), (1 / 5, [1 / 5]), (3 / 10, [3 / 40, 9 / 40]), (3 / 5, [3 / 10, -9 / 10, 6 / 5]),
    (1, [-11 / 54, 5 / 2, -70 / 27, 35 / 27]),
    (7 / 8, [1631 / 55296, 175 / 512, 575 / 13824, 44275 / 110592, 253 / 4096])]
  weights := [37 / 378, 0, 250 / 621, 125 / 594, 0, 512 / 1771]

/-- The system as it is driven by the executable `xdyn` (xdyn.cpp:36-54), which uses
`ssc::solver::quicksolve`: the loop of core/inc/solver.hpp:23-48 without line 38 (comment of that
file, lines 11-18: the states are not forced between two steps). -/
def sscSystem {Γ E : Type} (S : Setup K Γ E) (stepper : List K → K → K → Stepper K) : Solver.System K (Sim K Γ) (Res K E) :=
  { simSystem S stepper with force := fun s _ => .ok s }

/-- `GravityForceModel::operator()` as a force model of a simulation, GravityForceModel.cpp:23-30;
`inertia` is the inertia of the body without added mass and `g` the constant of the environment. -/
def gravityModel (b : Multi.MBody K) (inertia : Mat6 K) (g : K) : Multi.Force K := fun _ k _ => do
  let T ← k.get b.name "NED"
  return { frame := b.name, P := b.G, force := T.R.mulVec ![0, 0, inertia 2 2 * g], torque := ![0, 0, 0] }

/-- Evaluation of a simulation with one body: the body of the loop of `Sim::dx_dt`
(Sim.cpp:129-134) without `Body::update_body_states`, which is in `Sim.call`.  `dx` is the vector
of derivatives allocated by the solver. -/
def onePhysics (e : Multi.Entry K) : Physics K (Vec3 K × Vec3 K) Unit where
  eval c h x t := do
    let kin ← Multi.updateKinematics e.body x []
    let F ← Multi.sumOfForces c e.body e.forces e.controlled h kin x t
    let T ← kin.get "NED" e.body.name
    let dx ← stateDerivatives e.body.blocked e.body.Minv (Multi.toVector F) T.R x
      (List.replicate x.length 0) t e.body.idx
    return (dx, F)
  extra _ _ _ _ := ()

end Xdyn.Sim
