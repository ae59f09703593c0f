import Verif.Model.Common
import Mathlib.Algebra.Order.Field.Basic

/-
Model of core/inc/solver.hpp:23-48 (`quicksolve`).

External: SSC's `DefaultScheduler` has a current date; `get_time` returns it,
`has_more_time_events` tells whether it is before `tend` and `append_time_event` sets it.
The event handler detects nothing and `update_discrete_and_continuous_states` does nothing
(Sim.cpp:137-143).
-/

namespace Xdyn.Solver

variable {K : Type} [Field K] [LinearOrder K]

/-- The three callbacks of `quicksolve`: `stepper.do_step`, `force_states`,
`observer.observe`. -/
structure System (K S O : Type) where
  doStep : S → K → K → Except Err S
  force : S → K → Except Err S
  observe : S → K → Except Err O

variable {S O : Type}

/-- The `while` loop, solver.hpp:34-47, from the `i`-th step on.  `none` when more than `fuel`
iterations are needed. -/
def loop (sys : System K S O) (tstart tend dt : K) : Nat → Nat → S → K → List O →
    Option (Except Err (S × List O))
  | 0, _, s, now, obs => if now < tend then none else some (.ok (s, obs))
  | fuel + 1, i, s, now, obs =>
    if now < tend then
      match sys.doStep s now dt with
      | .error e => some (.error e)
      | .ok s => match sys.force s now with
        | .error e => some (.error e)
        | .ok s =>
          let now := tstart + ((i + 1 : Nat) : K) * dt
          match sys.observe s now with
          | .error e => some (.error e)
          | .ok o => loop sys tstart tend dt fuel (i + 1) s now (obs ++ [o])
    else some (.ok (s, obs))

/-- `quicksolve`, solver.hpp:26-48: final system and observations, in order. -/
def quicksolve (sys : System K S O) (fuel : Nat) (s : S) (tstart tend dt : K) :
    Option (Except Err (S × List O)) :=
  match sys.observe s tstart with
  | .error e => some (.error e)
  | .ok o => loop sys tstart tend dt fuel 0 s tstart [o]

end Xdyn.Solver
