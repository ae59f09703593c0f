import Verif.Model.Integrators

/-! What an explicit Runge-Kutta method computes, from a function that gives the derivatives, without
histories, commands nor exceptions. -/

namespace Xdyn.RK

variable {K : Type} [Field K]

/-- `x + dt (a1 k1 + a2 k2 + ...)`. -/
def move (dt : K) (x : List K) (a : List K) (ks : List (List K)) : List K :=
  (List.zip a ks).foldl (fun y p => List.zipWith (fun yi ki => yi + dt * p.1 * ki) y p.2) x

/-- The derivatives at the stages of a method, where `f x t` are the derivatives of the states `x` at
the date `t`, after those of `ks`. -/
def rkStages (f : List K → K → List K) (x : List K) (t dt : K) : List (K × List K) → List (List K) → List (List K)
  | [], ks => ks
  | (c, a) :: rest, ks => rkStages f x t dt rest (ks ++ [f (move dt x a ks) (t + c * dt)])

/-- One step of a method. -/
def rkStep (f : List K → K → List K) (T : Sim.Tableau K) (x : List K) (t dt : K) : List K :=
  move dt x T.weights (rkStages f x t dt T.stages [])

/-- Steps of length `dt` from the states `x` at the date `t0`; `G x t` is what becomes of the states
between two steps. -/
def rkRun (f G : List K → K → List K) (T : Sim.Tableau K) (x : List K) (t0 dt : K) : Nat → List K
  | 0 => x
  | i + 1 => G (rkStep f T (rkRun f G T x t0 dt i) (t0 + i * dt) dt) (t0 + i * dt)

end Xdyn.RK
