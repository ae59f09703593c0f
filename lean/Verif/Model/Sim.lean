import Verif.Model.Body
import Verif.Model.Solver
import Mathlib.Data.Real.Sqrt

/-
Model of core/src/Sim.cpp (state normalisation, forced states, evaluation, outputs, inputs of
the co-simulation) and of core/inc/simulator_api.hpp:29-38, observers_and_api/src/SimStepper.cpp
and XdynForCS.cpp.

The physics (force models, environment, inertia) is the parameter `Physics`: the derivatives
and the wrenches kept by the force models for the outputs are a function of the commands, of
the history of the states of the body, of the state vector and of the date.  Simplification:
one body in the evaluation and co-simulation part (`SimStepper` uses body 0 only).
-/

namespace Xdyn.Sim

open Blocked Body

section Normalisation

/-- `std::hypot`. -/
noncomputable def hypot (a b : ℝ) : ℝ := Real.sqrt (a ^ 2 + b ^ 2)

/-- Body `i` in the loop of `Sim::normalize_quaternions`, Sim.cpp:100-107.  `ae1` is SSC's
`almost_equal(norm, 1.0)`. -/
noncomputable def normalizeOne (ae1 : ℝ → Bool) (x : List ℝ) (i : Nat) : Except Err (List ℝ) := do
  let q ← quatOf x i
  let norm := hypot (hypot (hypot q.w q.x) q.y) q.z
  if ae1 norm then return x
  else do
    let x ← setUB x (QRIDX i) (q.w / norm)
    let x ← setUB x (QIIDX i) (q.x / norm)
    let x ← setUB x (QJIDX i) (q.y / norm)
    let x ← setUB x (QKIDX i) (q.z / norm)
    return x

/-- `Sim::normalize_quaternions`, Sim.cpp:94-110, for `n` bodies. -/
noncomputable def normalizeQuaternions (ae1 : ℝ → Bool) (n : Nat) (x : List ℝ) : Except Err (List ℝ) :=
  (List.range n).foldlM (normalizeOne ae1) x

end Normalisation

variable {K : Type} [Field K] [LinearOrder K] [IsStrictOrderedRing K]

/-- `Sim::force_states`, Sim.cpp:119-125. -/
def forceAllStates (bodies : List (BlockedDof K)) (x : List K) (t : K) : Except Err (List K) :=
  bodies.foldlM (fun x b => forceStates b x t) x

/-- First loop of `Sim::output`, Sim.cpp:201-205: each body starts again from `x`
(`Body::block_states_if_necessary` takes it by value, Body.cpp:70-74). -/
def outputStates (bodies : List (BlockedDof K)) (x : List K) (t : K) : Except Err (List K) :=
  bodies.foldlM (fun _ b => forceStates b x t) []

/-- Commands given to the controlled forces, by name. -/
abbrev Commands (K : Type) := String → Option K

/-- Derivatives of the states and wrenches kept by the force models, after
`Body::update`, `Sim::sum_of_forces` and `Body::calculate_state_derivatives` (Sim.cpp:127-135);
`extra` are the values written by `Sim::output` (Sim.cpp:199-237) besides the date and the
states of the body. -/
structure Physics (K Γ E : Type) where
  eval : Commands K → States (History K) → List K → K → Except Err (List K × Γ)
  extra : Γ → List K → List K → K → E

/-- Data members of a `Sim` with one body. -/
structure Sim (K Γ : Type) where
  state : List K
  hist : States (History K)
  commands : Commands K
  dxdt : List K
  cache : Γ

/-- `Body::update_body_states`, Body.cpp:76-92, for body 0: the forced states are recorded. -/
def updateBodyStates (ae : Nat → K → K → Bool) (b : BlockedDof K) (h : States (History K)) (x : List K) (t : K) :
    Except Err (States (History K)) := do
  let x ← forceStates b x t
  h.record ae
    { t := t, x := ← getUB x (XIDX 0), y := ← getUB x (YIDX 0), z := ← getUB x (ZIDX 0),
      u := ← getUB x (UIDX 0), v := ← getUB x (VIDX 0), w := ← getUB x (WIDX 0),
      p := ← getUB x (PIDX 0), q := ← getUB x (QIDX 0), r := ← getUB x (RIDX 0),
      qr := ← getUB x (QRIDX 0), qi := ← getUB x (QIIDX 0), qj := ← getUB x (QJIDX 0), qk := ← getUB x (QKIDX 0),
      phi := 0, theta := 0, psi := 0 }

/-- Everything of a simulation that does not change: physics, blocked states, comparison of
floating point numbers and normalisation of the quaternions. -/
structure Setup (K Γ E : Type) where
  physics : Physics K Γ E
  blocked : BlockedDof K
  ae : Nat → K → K → Bool
  normalize : List K → Except Err (List K)

variable {Γ E : Type}

/-- `Sim::operator()`, Sim.cpp:112-117 with `Sim::dx_dt`, 127-135. -/
def Sim.call (S : Setup K Γ E) (s : Sim K Γ) (x : List K) (t : K) : Except Err (List K × Sim K Γ) := do
  let hist ← updateBodyStates S.ae S.blocked s.hist x t
  let (dx, cache) ← S.physics.eval s.commands hist x t
  let state ← S.normalize x
  return (dx, { s with state := state, hist := hist, dxdt := dx, cache := cache })

/-- One step of a solver: a program that evaluates the system a number of times.  After each
evaluation it gets the derivatives and the value of `sys.state` (the state given to `do_step`
is `sys.state` itself, solver.hpp:37, and `Sim::operator()` assigns it). -/
inductive Stepper (K : Type) where
  | done (x : List K)
  | call (x : List K) (t : K) (k : List K → List K → Stepper K)

/-- Execution of a step. -/
def Stepper.run (S : Setup K Γ E) : Stepper K → Sim K Γ → Except Err (Sim K Γ)
  | .done x, s => .ok { s with state := x }
  | .call x t k, s => do
    let (dx, s) ← s.call S x t
    Stepper.run S (k dx s.state) s

/-- An observation: date, thirteen states (or more) and other observed values. -/
structure Res (K E : Type) where
  t : K
  x : List K
  extra : E
deriving DecidableEq

/-- `observer.observe(sys, t)` = `Sim::output(sys.state, obs, t)`, Sim.cpp:199-237. -/
def Sim.observe (S : Setup K Γ E) (s : Sim K Γ) (t : K) : Except Err (Res K E) := do
  let x ← outputStates [S.blocked] s.state t
  let x ← S.normalize x
  return { t := t, x := x, extra := S.physics.extra s.cache s.dxdt x t }

/-- The system driven by `quicksolve`: a step, the forced states, an observation. -/
def simSystem (S : Setup K Γ E) (stepper : List K → K → K → Stepper K) : Solver.System K (Sim K Γ) (Res K E) where
  doStep s t dt := (stepper s.state t dt).run S s
  force s t := do
    let x ← forceAllStates [S.blocked] s.state t
    return { s with state := x }
  observe s t := s.observe S t

/-- `Sim::set_bodystates`, Sim.cpp:239-247. -/
def Sim.setBodyStates (s : Sim K Γ) (h : States (History K)) : Except Err (Sim K Γ) :=
  if h.x.L.isEmpty then .ok { s with hist := h }
  else do
    let x ← h.getStateType (h.x.L.length - 1)
    return { s with hist := h, state := x }

/-- `Sim::set_command_listener`, Sim.cpp:249-255: the new commands are added to the ones
already known. -/
def Sim.setCommandListener (s : Sim K Γ) (c : Commands K) : Sim K Γ :=
  { s with commands := fun n => match c n with | some v => some v | none => s.commands n }

/-- `Sim::reset_history`, Sim.cpp:257-263. -/
def Sim.resetHistory (s : Sim K Γ) : Sim K Γ := { s with hist := s.hist.resetHistories }

/-- `simulate(sys, tstart, tend, dt)`, simulator_api.hpp:29-38: the observation at `tend` (line
34) is removed from the results (line 36).  `fuel` bounds the number of steps, see
`Solver.loop`. -/
def simulate (S : Setup K Γ E) (stepper : List K → K → K → Stepper K) (fuel : Nat) (s : Sim K Γ)
    (tstart tend dt : K) : Option (Except Err (Sim K Γ × List (Res K E))) := do
  let r ← Solver.quicksolve (simSystem S stepper) fuel s tstart tend dt
  return do
    let (s, obs) ← r
    let _ ← s.observe S tend
    return (s, obs)

end Xdyn.Sim
