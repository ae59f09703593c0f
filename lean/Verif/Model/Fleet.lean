import Verif.Model.Integrators

/-
Model of a simulation of several bodies driven by a solver: core/src/Sim.cpp (`operator()` 112-117,
`force_states` 119-125, `output` 199-206) on top of Model/MultiBody (`dx_dt`), with the explicit
Runge-Kutta methods of Model/Integrators, and the numbering of the bodies by
core/src/SimulatorBuilder.cpp:31-49 and BodyBuilder.cpp:91-93.

The observations are the date and the vector of states written by `Body::feed` (Sim.cpp:221); the
efforts are left out.
-/

namespace Xdyn.Sim

open Blocked Body Multi

variable {K : Type} [Field K] [LinearOrder K] [IsStrictOrderedRing K]

/-- The body with number `k` in the list of bodies: SimulatorBuilder.cpp:40 and BodyBuilder.cpp:91-93
give the number to the body and to its blocked states. -/
def place (k : Nat) (e : Entry K) : Entry K :=
  { e with body := { e.body with idx := k, blocked := { e.body.blocked with bodyIdx := k } } }

/-- The bodies of a simulation, numbered in the order of the file: SimulatorBuilder.cpp:31-49. -/
def placeAll (es : List (Entry K)) : List (Entry K) := es.mapIdx place

/-- Data members of a `Sim` with several bodies: vector of states, histories of the bodies, commands,
shared frames and wrenches kept for the outputs. -/
structure Fleet (K : Type) where
  state : List K
  hist : List (States (History K))
  commands : Commands K
  kin : Kin K
  sums : StdMap String (Vec3 K × Vec3 K)

/-- What does not change: bodies with their force models, comparison of floating point numbers and
normalisation of the quaternions. -/
structure FleetSetup (K : Type) where
  entries : List (Entry K)
  ae : Nat → K → K → Bool
  normalize : List K → Except Err (List K)

/-- `Sim::operator()`, Sim.cpp:112-117; the vector of derivatives is allocated by the solver. -/
def Fleet.call (S : FleetSetup K) (s : Fleet K) (x : List K) (t : K) : Except Err (List K × Fleet K) := do
  let (w, hist) ← dxdt S.ae (mapsOf S.entries) s.commands x t ((S.entries.map Entry.body).zip s.hist)
    ⟨s.kin, s.sums, List.replicate x.length 0⟩
  let state ← S.normalize x
  return (w.dx, { s with state := state, hist := hist, kin := w.kin, sums := w.sums })

/-- Execution of a step (see `Stepper.run`). -/
def Stepper.runFleet (S : FleetSetup K) : Stepper K → Fleet K → Except Err (Fleet K)
  | .done x, s => .ok { s with state := x }
  | .call x t k, s => do
    let (dx, s) ← s.call S x t
    Stepper.runFleet S (k dx s.state) s

/-- The system driven by `quicksolve`, as `simSystem`: `Sim::force_states` (Sim.cpp:119-125) between the
steps, first lines of `Sim::output` (Sim.cpp:201-206). -/
def fleetSystem (S : FleetSetup K) (stepper : List K → K → K → Stepper K) : Solver.System K (Fleet K) (K × List K) where
  doStep s t dt := (stepper s.state t dt).runFleet S s
  force s t := do
    let x ← forceAllStates (S.entries.map fun e => e.body.blocked) s.state t
    return { s with state := x }
  observe s t := do
    let x ← outputStates (S.entries.map fun e => e.body.blocked) s.state t
    let x ← S.normalize x
    return (t, x)

end Xdyn.Sim
