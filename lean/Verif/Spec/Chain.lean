import Verif.Model.Server
import Verif.Spec.RungeKutta
import Mathlib.Analysis.Real.Sqrt

/-! A client that runs a simulation by several co-simulation requests, and what it should get. -/

namespace Xdyn.Server

open Xdyn.Sim

variable {K : Type} [Field K] [LinearOrder K] [IsStrictOrderedRing K] {Γ E : Type}

/-- A client that has received the states `received` (in order) from a server in the state `s`, and makes the requests `requests`: for
each one, the number of the oldest states that it does not send (the last state is always sent) and the duration `Dt`.  The last
state of each answer is where the next request starts.  The result is the list of the answers. -/
def chain (S : Setup K Γ E) (C : StepConf K) (Tmax : K) (fuel : Nat) (cmd : Commands K) :
    Sim K Γ → List (YamlState K) → List (Nat × K) → Option (Except Err (List (List (YamlState K × E))))
  | _, _, [] => some (.ok [])
  | s, received, (forget, Dt) :: l =>
    match Inputs.ofYaml S.ae { Dt := Dt, states := received.drop (min forget (received.length - 1)), commands := cmd } Tmax with
    | .error e => some (.error e)
    | .ok inp =>
      match playOneStep S C fuel s inp with
      | none => none
      | some (.error e) => some (.error e)
      | some (.ok (s', answer)) =>
        match chain S C Tmax fuel cmd s' (received ++ (answer.drop 1).map Prod.fst) l with
        | none => none
        | some (.error e) => some (.error e)
        | some (.ok answers) => some (.ok (answer :: answers))

/-- The dates and states of the answers, when the `j`-th request makes `steps[j]` steps: the method is applied to `f` from the
last state received, and what is sent is `out`, a function of the states that are integrated and of the date. -/
def pieces (f F out : List K → K → List K) (T : Tableau K) (dt : K) : List K → K → List Nat → List (List (K × List K))
  | _, _, [] => []
  | x, t, N :: l =>
    (List.range (N + 1)).map (fun i : Nat => (t + i * dt, out (RK.rkRun f F T x t dt i) (t + i * dt))) ::
      pieces f F out T dt (out (RK.rkRun f F T x t dt N) (t + N * dt)) (t + N * dt) l

/-- A list cut into pieces of `steps[j]` steps; each piece starts with the last element of the previous one. -/
def cuts {α : Type} (l : List α) : List Nat → List (List α)
  | [] => []
  | N :: r => l.take (N + 1) :: cuts (l.drop N) r

/-- The states with the quaternion divided by its norm, unless the norm passes the test `ae1`. -/
noncomputable def unitQuaternion (ae1 : ℝ → Bool) (s : List ℝ) : List ℝ :=
  match s with
  | [x, y, z, u, v, w, p, q, r, qr, qi, qj, qk] =>
    let n := Real.sqrt (qr ^ 2 + qi ^ 2 + qj ^ 2 + qk ^ 2)
    if ae1 n then s else [x, y, z, u, v, w, p, q, r, qr / n, qi / n, qj / n, qk / n]
  | _ => s

end Xdyn.Server
