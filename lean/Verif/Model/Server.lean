import Verif.Model.Sim
import Mathlib.Analysis.SpecialFunctions.Trigonometric.Basic

/-
Model of the inputs and outputs of the co-simulation and model exchange servers:
observers_and_api/src/SimServerInputs.cpp, SimStepper.cpp, XdynForCS.cpp, XdynForME.cpp,
executables/src/CosimulationServiceImpl.cpp and ModelExchangeServiceImpl.cpp.

External (parameters): conversions between Euler angles and quaternions (SSC and Eigen, called
through `BodyStates::convert`), the steppers (see `Sim.Stepper`), the gRPC transport.  A
protobuf repeated field is a list; reading it out of bounds is undefined behaviour.
-/

namespace Xdyn.Server

open Xdyn.Sim

variable {K : Type} [Field K] [LinearOrder K] [IsStrictOrderedRing K]

/-- `YamlSimServerInputs`, external_data_structures/inc/YamlSimServerInputs.hpp. -/
structure YamlInputs (K : Type) where
  Dt : K
  states : List (YamlState K)
  commands : Commands K

/-- `SimServerInputs`, observers_and_api/inc/SimServerInputs.hpp:17-28. -/
structure Inputs (K : Type) where
  t : K
  Dt : K
  stateAtT : List K
  historyExceptLast : States (History K)
  fullHistory : States (History K)
  commands : Commands K

/-- SimServerInputs.cpp:47-59: `state_at_t`, in this order. -/
def stateAt (s : YamlState K) : List K :=
  [s.x, s.y, s.z, s.u, s.v, s.w, s.p, s.q, s.r, s.qr, s.qi, s.qj, s.qk]

/-- `SimServerInputs::SimServerInputs(YamlSimServerInputs, max_history_length)`,
SimServerInputs.cpp:31-63. -/
def Inputs.ofYaml (ae : Nat → K → K → Bool) (y : YamlInputs K) (Tmax : K) : Except Err (Inputs K) :=
  match y.states.getLast? with
  | none => .ok { t := 0, Dt := y.Dt, stateAtT := List.replicate 13 0,
                  historyExceptLast := States.newHistories Tmax, fullHistory := States.newHistories Tmax,
                  commands := y.commands }
  | some last => do
    let h ← y.states.dropLast.foldlM (fun (h : States (History K) × States (History K)) s => do
      let h1 ← h.1.record ae s
      let h2 ← h.2.record ae s
      return (h1, h2)) (States.newHistories Tmax, States.newHistories Tmax)
    let full ← h.2.record ae last
    return { t := last.t, Dt := y.Dt, stateAtT := stateAt last,
             historyExceptLast := h.1, fullHistory := full, commands := y.commands }

/-- `SimServerInputs::SimServerInputs(double Dt)`, SimServerInputs.cpp:65-73.  It is not
`explicit` (SimServerInputs.hpp:20): a `double` is converted to a `SimServerInputs`. -/
def Inputs.ofDouble (Dt : K) : Inputs K :=
  { t := 0, Dt := Dt, stateAtT := [], historyExceptLast := States.newHistories Dt,
    fullHistory := States.newHistories Dt, commands := fun _ => none }

/-! ### Co-simulation -/

variable {Γ E : Type}

/-- `convert_without_angles`, SimStepper.cpp:15-38. -/
def convertWithoutAngles (r : Res K E) : Except Err (YamlState K × E) := do
  return ({ t := r.t, x := ← getUB r.x 0, y := ← getUB r.x 1, z := ← getUB r.x 2,
            u := ← getUB r.x 3, v := ← getUB r.x 4, w := ← getUB r.x 5,
            p := ← getUB r.x 6, q := ← getUB r.x 7, r := ← getUB r.x 8,
            qr := ← getUB r.x 9, qi := ← getUB r.x 10, qj := ← getUB r.x 11, qk := ← getUB r.x 12,
            phi := 0, theta := 0, psi := 0 }, r.extra)

/-- `convert_with_angles`, SimStepper.cpp:40-54.  `angles` is `body->get_states().get_angles()`
for a body whose history has just been set to the single state `ret`: a function of the
quaternion.  Simplification: the history left in the body (replaced at the beginning of the
next request, SimStepper.cpp:59-60) is not modelled. -/
def convertWithAngles (angles : K → K → K → K → Except Err (K × K × K)) (r : Res K E) : Except Err (YamlState K × E) := do
  let (y, e) ← convertWithoutAngles r
  let a ← angles y.qr y.qi y.qj y.qk
  return ({ y with phi := a.1, theta := a.2.1, psi := a.2.2 }, e)

/-- Inputs of `SimStepper::step` other than the simulator: the solver chosen among `euler`, `rk4`
and `rkck` and its time step (SimStepper.cpp:63-78), the conversion of the attitude. -/
structure StepConf (K : Type) where
  stepper : List K → K → K → Stepper K
  dt : K
  angles : K → K → K → K → Except Err (K × K × K)

/-- The simulator as `SimStepper::step` starts the solver, SimStepper.cpp:59-61. -/
def prepare (s : Sim K Γ) (inp : Inputs K) : Except Err (Sim K Γ) := do
  let s ← s.resetHistory.setBodyStates inp.fullHistory
  return s.setCommandListener inp.commands

/-- `SimStepper::step`, SimStepper.cpp:56-89 (one body). -/
def step (S : Setup K Γ E) (C : StepConf K) (fuel : Nat) (s : Sim K Γ) (inp : Inputs K) (Dt : K) :
    Option (Except Err (Sim K Γ × List (YamlState K × E))) :=
  match prepare s inp with
  | .error e => some (.error e)
  | .ok s => do
    let r ← simulate S C.stepper fuel s inp.t (inp.t + Dt) C.dt
    return do
      let (s, results) ← r
      let ret ← results.mapM (convertWithAngles C.angles)
      return (s, ret)

/-- `SimServer::play_one_step(SimServerInputs)`, XdynForCS.cpp:33-40. -/
def playOneStep (S : Setup K Γ E) (C : StepConf K) (fuel : Nat) (s : Sim K Γ) (inp : Inputs K) :
    Option (Except Err (Sim K Γ × List (YamlState K × E))) :=
  if inp.Dt ≤ 0 then some (.error (.throw "InvalidInputException"))
  else step S C fuel s inp inp.Dt

/-! ### Model exchange -/

/-- `XdynForME::calculate_dx_dt`, XdynForME.cpp:21-31, with `Sim::dx_dt`, Sim.cpp:127-135. -/
def calculateDxDt (S : Setup K Γ E) (s : Sim K Γ) (inp : Inputs K) : Except Err (Sim K Γ × List K) := do
  let s ← s.setBodyStates inp.historyExceptLast
  let s := s.setCommandListener inp.commands
  let hist ← updateBodyStates S.ae S.blocked s.hist inp.stateAtT inp.t
  let (dx, cache) ← S.physics.eval s.commands hist inp.stateAtT inp.t
  return ({ s with hist := hist, cache := cache }, dx)

/-! ### gRPC -/

/-- `grpc::Status`: OK, INVALID_ARGUMENT (with the names of the states in the message) or
INTERNAL. -/
inductive Status where
  | ok
  | invalidArgument (names : List String)
  | internal
deriving DecidableEq

/-- `CosimulationStatesQuaternion`, `ModelExchangeStatesQuaternion`: repeated fields. -/
structure GrpcQuat (K : Type) extends States (List K) where
  t : List K

/-- `CosimulationStatesEuler`, `ModelExchangeStatesEuler`: repeated fields. -/
structure GrpcEuler (K : Type) where
  t : List K
  x : List K
  y : List K
  z : List K
  u : List K
  v : List K
  w : List K
  p : List K
  q : List K
  r : List K
  phi : List K
  theta : List K
  psi : List K

/-- A gRPC request (`dt` is absent from model exchange requests). -/
structure GrpcRequest (K α : Type) where
  dt : K
  states : α
  commands : Commands K

/-- `CHECK_SIZE(state)`, CosimulationServiceImpl.cpp:20-25, ModelExchangeServiceImpl.cpp:23-28. -/
def checkSize (t : List K) (name : String) (l : List K) : List String :=
  if l.length ≠ t.length then [name] else []

/-- `Status` from the messages, CosimulationServiceImpl.cpp:51-55, 83-87. -/
def statusOf (msg : List String) : Status := if msg = [] then .ok else .invalidArgument msg

/-- `check_states_size(CosimulationRequestEuler*)`, CosimulationServiceImpl.cpp:28-56, and
`check_states_size(ModelExchangeRequestEuler*)`, ModelExchangeServiceImpl.cpp:31-59 (the request
is not a null pointer). -/
def checkEuler (s : GrpcEuler K) : Status :=
  statusOf (checkSize s.t "x" s.x ++ checkSize s.t "y" s.y ++ checkSize s.t "z" s.z ++
    checkSize s.t "u" s.u ++ checkSize s.t "v" s.v ++ checkSize s.t "w" s.w ++
    checkSize s.t "p" s.p ++ checkSize s.t "q" s.q ++ checkSize s.t "r" s.r ++
    checkSize s.t "phi" s.phi ++ checkSize s.t "theta" s.theta ++ checkSize s.t "psi" s.psi)

/-- `check_states_size(CosimulationRequestQuaternion*)`, CosimulationServiceImpl.cpp:59-88, and
`check_states_size(ModelExchangeRequestQuaternion*)`, ModelExchangeServiceImpl.cpp:62-91. -/
def checkQuat (s : GrpcQuat K) : Status :=
  statusOf (checkSize s.t "x" s.x ++ checkSize s.t "y" s.y ++ checkSize s.t "z" s.z ++
    checkSize s.t "u" s.u ++ checkSize s.t "v" s.v ++ checkSize s.t "w" s.w ++
    checkSize s.t "p" s.p ++ checkSize s.t "q" s.q ++ checkSize s.t "r" s.r ++
    checkSize s.t "qr" s.qr ++ checkSize s.t "qi" s.qi ++ checkSize s.t "qj" s.qj ++ checkSize s.t "qk" s.qk)

/-- Iteration `i` of the loop of `from_grpc`, CosimulationServiceImpl.cpp:107-126,
ModelExchangeServiceImpl.cpp:110-129.  The date `t` keeps the value 0 given by the constructor of
`YamlState` (YamlState.cpp:3-26). -/
def eulerState (toQuat : K → K → K → K × K × K × K) (s : GrpcEuler K) (i : Nat) : Except Err (YamlState K) := do
  let x ← getUB s.x i
  let y ← getUB s.y i
  let z ← getUB s.z i
  let u ← getUB s.u i
  let v ← getUB s.v i
  let w ← getUB s.w i
  let p ← getUB s.p i
  let q ← getUB s.q i
  let r ← getUB s.r i
  let phi ← getUB s.phi i
  let theta ← getUB s.theta i
  let psi ← getUB s.psi i
  let quat := toQuat phi theta psi
  return { t := 0, x, y, z, u, v, w, p, q, r, qr := quat.1, qi := quat.2.1, qj := quat.2.2.1, qk := quat.2.2.2,
           phi := 0, theta := 0, psi := 0 }

/-- Iteration `i` of the loop of `from_grpc`, CosimulationServiceImpl.cpp:144-159,
ModelExchangeServiceImpl.cpp:147-162. -/
def quatState (s : GrpcQuat K) (i : Nat) : Except Err (YamlState K) := do
  let x ← getUB s.x i
  let y ← getUB s.y i
  let z ← getUB s.z i
  let u ← getUB s.u i
  let v ← getUB s.v i
  let w ← getUB s.w i
  let p ← getUB s.p i
  let q ← getUB s.q i
  let r ← getUB s.r i
  let qr ← getUB s.qr i
  let qi ← getUB s.qi i
  let qj ← getUB s.qj i
  let qk ← getUB s.qk i
  return { t := 0, x, y, z, u, v, w, p, q, r, qr, qi, qj, qk, phi := 0, theta := 0, psi := 0 }

/-- `from_grpc(CosimulationRequestEuler)`, CosimulationServiceImpl.cpp:91-129; for
`ModelExchangeRequestEuler` (ModelExchangeServiceImpl.cpp:94-132), `dt` is 0. -/
def fromGrpcEuler (toQuat : K → K → K → K × K × K × K) (r : GrpcRequest K (GrpcEuler K)) : Except Err (YamlInputs K) := do
  let states ← (List.range r.states.t.length).mapM (eulerState toQuat r.states)
  return { Dt := r.dt, states := states, commands := r.commands }

/-- `from_grpc(CosimulationRequestQuaternion)`, CosimulationServiceImpl.cpp:132-162; for
`ModelExchangeRequestQuaternion` (ModelExchangeServiceImpl.cpp:135-165), `dt` is 0. -/
def fromGrpcQuat (r : GrpcRequest K (GrpcQuat K)) : Except Err (YamlInputs K) := do
  let states ← (List.range r.states.t.length).mapM (quatState r.states)
  return { Dt := r.dt, states := states, commands := r.commands }

/-- `CosimulationResponse`: `all_states` (one list per state) and `last_state`. -/
structure CosimResponse (K : Type) where
  all : States (List K)
  phi : List K
  theta : List K
  psi : List K
  t : List K
  last : YamlState K

/-- `to_grpc(std::vector<YamlState>)`, CosimulationServiceImpl.cpp:165-219. -/
def cosimToGrpc (res : List (YamlState K)) : Status × Option (CosimResponse K) :=
  match res.getLast? with
  | none => (.internal, none)
  | some state => (.ok, some
    { all := { x := res.map (·.x), y := res.map (·.y), z := res.map (·.z),
               u := res.map (·.u), v := res.map (·.v), w := res.map (·.w),
               p := res.map (·.p), q := res.map (·.q), r := res.map (·.r),
               qr := res.map (·.qr), qi := res.map (·.qi), qj := res.map (·.qj), qk := res.map (·.qk) },
      phi := res.map (·.phi), theta := res.map (·.theta), psi := res.map (·.psi), t := res.map (·.t),
      last := { x := state.x, y := state.y, z := state.z, u := state.u, v := state.v, w := state.w,
                p := state.p, q := state.q, r := state.r,
                qr := state.qr, qi := state.qi, qj := state.qj, qk := state.qk,
                t := state.t, phi := state.phi, theta := state.theta, psi := state.psi } })

/-- `CosimulationServiceImpl::step_quaternion`, CosimulationServiceImpl.cpp:237-251. -/
def stepQuaternion (S : Setup K Γ E) (C : StepConf K) (fuel : Nat) (Tmax : K) (s : Sim K Γ)
    (r : GrpcRequest K (GrpcQuat K)) : Option (Except Err (Sim K Γ × Status × Option (CosimResponse K))) :=
  match checkQuat r.states with
  | .ok =>
    match (do Inputs.ofYaml S.ae (← fromGrpcQuat r) Tmax) with
    | .error e => some (.error e)
    | .ok inp => do
      let out ← playOneStep S C fuel s inp
      return do
        let (s, l) ← out
        return (s, cosimToGrpc (l.map Prod.fst))
  | precond => some (.ok (s, precond, none))

/-- `CosimulationServiceImpl::step_euler_321`, CosimulationServiceImpl.cpp:221-235. -/
def stepEuler (toQuat : K → K → K → K × K × K × K) (S : Setup K Γ E) (C : StepConf K) (fuel : Nat) (Tmax : K)
    (s : Sim K Γ) (r : GrpcRequest K (GrpcEuler K)) :
    Option (Except Err (Sim K Γ × Status × Option (CosimResponse K))) :=
  match checkEuler r.states with
  | .ok =>
    match (do Inputs.ofYaml S.ae (← fromGrpcEuler toQuat r) Tmax) with
    | .error e => some (.error e)
    | .ok inp => do
      let out ← playOneStep S C fuel s inp
      return do
        let (s, l) ← out
        return (s, cosimToGrpc (l.map Prod.fst))
  | precond => some (.ok (s, precond, none))

/-- `ModelExchangeStateDerivatives`: derivatives of the thirteen states, of the Euler angles,
and date. -/
structure MEResponse (K : Type) extends States K where
  phi : K
  theta : K
  psi : K
  t : K
deriving DecidableEq

/-- `get_euler_derivative`, ModelExchangeServiceImpl.cpp:168-186, for a given state vector:
`rates` computes the rates from the quaternion (lines 173-178, 182-184) and (p,q,r). -/
def getEulerDerivative (rates : K → K → K → K → K → K → K → K × K × K) (state : List K) : Except Err (K × K × K) := do
  let qr ← getUB state 9
  let qi ← getUB state 10
  let qj ← getUB state 11
  let qk ← getUB state 12
  let p ← getUB state 6
  let q ← getUB state 7
  let r ← getUB state 8
  return rates qr qi qj qk p q r

/-- Lines 174-185 of ModelExchangeServiceImpl.cpp: rates of the Euler angles (phi, theta, psi) of a
body rotating at (p, q, r), `phi` and `theta` being its current angles (external conversion of the
quaternion, line 174). -/
noncomputable def eulerRates (phi theta p q r : ℝ) : ℝ × ℝ × ℝ :=
  let cosPhi := Real.cos phi
  let sinPhi := Real.sin phi
  let cosTheta := Real.cos theta
  let tanTheta := Real.tan theta
  (p + sinPhi * tanTheta * q + cosPhi * tanTheta * r,
   cosPhi * q - sinPhi * r,
   sinPhi / cosTheta * q + cosPhi / cosTheta * r)

/-- `to_grpc(StateType res, ModelExchangeResponse*, SimServerInputs)`,
ModelExchangeServiceImpl.cpp:189-216. -/
def meToGrpc (rates : K → K → K → K → K → K → K → K × K × K) (res : List K) (inp : Inputs K) :
    Except Err (Status × Option (MEResponse K)) :=
  match res with
  | [x, y, z, u, v, w, p, q, r, qr, qi, qj, qk] => do
    let e ← getEulerDerivative rates inp.stateAtT
    return (.ok, some { x, y, z, u, v, w, p, q, r, qr, qi, qj, qk, phi := e.1, theta := e.2.1, psi := e.2.2, t := inp.t })
  | _ => .ok (.internal, none)

/-- `ModelExchangeServiceImpl::dx_dt_euler_321`, ModelExchangeServiceImpl.cpp:218-232. -/
def dxDtEuler (toQuat : K → K → K → K × K × K × K) (rates : K → K → K → K → K → K → K → K × K × K)
    (S : Setup K Γ E) (Tmax : K) (s : Sim K Γ) (r : GrpcRequest K (GrpcEuler K)) :
    Except Err (Sim K Γ × Status × Option (MEResponse K)) :=
  match checkEuler r.states with
  | .ok => do
    let inp ← Inputs.ofYaml S.ae (← fromGrpcEuler toQuat { r with dt := 0 }) Tmax
    let (s, output) ← calculateDxDt S s inp
    let post ← meToGrpc rates output inp
    return (s, post)
  | precond => .ok (s, precond, none)

/-- `ModelExchangeServiceImpl::dx_dt_quaternion`, ModelExchangeServiceImpl.cpp:234-253.  Line 251
gives the date `t` to a function that takes a `SimServerInputs`. -/
def dxDtQuaternion (rates : K → K → K → K → K → K → K → K × K × K)
    (S : Setup K Γ E) (Tmax : K) (s : Sim K Γ) (r : GrpcRequest K (GrpcQuat K)) :
    Except Err (Sim K Γ × Status × Option (MEResponse K)) :=
  match checkQuat r.states with
  | .ok => do
    let inputs ← fromGrpcQuat { r with dt := 0 }
    match inputs.states.getLast? with
    | none => return (s, .internal, none)
    | some last =>
      let (s, output) ← calculateDxDt S s (← Inputs.ofYaml S.ae inputs Tmax)
      let post ← meToGrpc rates output (Inputs.ofDouble last.t)
      return (s, post)
  | precond => .ok (s, precond, none)

end Xdyn.Server
