import Verif.Model.State
import Verif.Model.Body

/-
Model of the exchanges with distant models: grpc/src/SurfaceElevationFromGRPC.cpp (distant wave model), grpc/src/GRPCForceModel.cpp,
grpc/src/ToGRPC.cpp and grpc/src/FromGRPC.cpp (distant force model), with the checks of core/src/SurfaceElevationInterface.cpp:153-208.

A distant server is a set of functions from the request to a status and a response (the `stub`s); the message classes generated by
protobuf are structures of lists.  `grpc::Status::error_code` is an integer: the C++ type is an enumeration, but the value is
whatever the server sent.  Texts of messages are not modelled, only the kind of exception.
-/

namespace Xdyn.Grpc

variable {K : Type}

/-! ### Statuses -/

/-- Numerical values of `grpc::StatusCode`. -/
inductive Code where
  | OK | CANCELLED | UNKNOWN | INVALID_ARGUMENT | DEADLINE_EXCEEDED | NOT_FOUND | ALREADY_EXISTS | PERMISSION_DENIED | RESOURCE_EXHAUSTED | FAILED_PRECONDITION
  | ABORTED | OUT_OF_RANGE | UNIMPLEMENTED | INTERNAL | UNAVAILABLE | DATA_LOSS | UNAUTHENTICATED | DO_NOT_USE
deriving DecidableEq, Repr

/-- grpcpp/impl/codegen/status_code_enum.h. -/
def Code.value : Code → Int
  | .OK => 0 | .CANCELLED => 1 | .UNKNOWN => 2 | .INVALID_ARGUMENT => 3 | .DEADLINE_EXCEEDED => 4 | .NOT_FOUND => 5 | .ALREADY_EXISTS => 6
  | .PERMISSION_DENIED => 7 | .RESOURCE_EXHAUSTED => 8 | .FAILED_PRECONDITION => 9 | .ABORTED => 10 | .OUT_OF_RANGE => 11 | .UNIMPLEMENTED => 12
  | .INTERNAL => 13 | .UNAVAILABLE => 14 | .DATA_LOSS => 15 | .UNAUTHENTICATED => 16 | .DO_NOT_USE => -1

/-- The labels of the `switch` that throw, in their order: SurfaceElevationFromGRPC.cpp:58-142 and GRPCForceModel.cpp:46-130. -/
def throwingCodes : List Code :=
  [.ABORTED, .ALREADY_EXISTS, .CANCELLED, .DATA_LOSS, .DEADLINE_EXCEEDED, .DO_NOT_USE, .FAILED_PRECONDITION, .INTERNAL, .INVALID_ARGUMENT, .NOT_FOUND,
   .OUT_OF_RANGE, .PERMISSION_DENIED, .RESOURCE_EXHAUSTED, .UNAUTHENTICATED, .UNAVAILABLE, .UNIMPLEMENTED, .UNKNOWN]

def grpcError : Err := .throw "GRPCError"

/-- `throw_if_invalid_status`, SurfaceElevationFromGRPC.cpp:40-149 and GRPCForceModel.cpp:28-137 (the same switch; the default
label returns). -/
def throwIfInvalid (code : Int) : Except Err Unit :=
  if code = Code.OK.value then .ok ()
  else if throwingCodes.any (fun c => c.value == code) then .error grpcError
  else .ok ()

/-- A call to a distant server followed by `throw_if_invalid_status`. -/
def call {Req Resp : Type} (method : Req → Int × Resp) (request : Req) : Except Err Resp := do
  let r := method request
  throwIfInvalid r.1
  return r.2

/-! ### Distant wave model -/

/-- One spectrum of a `SpectrumResponse`; also `DiscreteDirectionalWaveSpectrum`, whose two functions are not sent. -/
structure Spectrum (K : Type) where
  si : List K
  dj : List K
  omega : List K
  psi : List K
  k : List K
  phase : List (List K)
deriving DecidableEq

/-- A set of points at a date: `XYTGrid`, `XYZTGrid` (with `z`). -/
structure Points (K : Type) where
  t : K
  x : List K
  y : List K
  z : List K
deriving DecidableEq

/-- The `Waves` service. -/
structure WaveServer (K : Type) where
  elevations : Points K → Int × List K
  dynamicPressures : Points K → Int × List K
  orbitalVelocities : Points K → Int × (List K × List K × List K)
  spectrum : K × K × K → Int × List (Spectrum K)

/-- `SurfaceElevationFromGRPC::Impl::elevations`, SurfaceElevationFromGRPC.cpp:151-165. -/
def elevations (s : WaveServer K) (x y : List K) (t : K) : Except Err (List K) := call s.elevations ⟨t, x, y, []⟩

/-- `SurfaceElevationFromGRPC::Impl::dynamic_pressures`, SurfaceElevationFromGRPC.cpp:167-182. -/
def dynamicPressures (s : WaveServer K) (x y z : List K) (t : K) : Except Err (List K) := call s.dynamicPressures ⟨t, x, y, z⟩

/-- `SurfaceElevationFromGRPC::Impl::orbital_velocities`, SurfaceElevationFromGRPC.cpp:184-222: columns of the matrix.  The loop of lines 215-220 runs over the
components `vx`. -/
def orbitalVelocities (s : WaveServer K) (x y z : List K) (t : K) : Except Err (List (K × K × K)) := do
  let r ← call s.orbitalVelocities ⟨t, x, y, z⟩
  if r.1.length ≠ 1 then .error grpcError
  else if r.2.1.length ≠ 1 then .error grpcError
  else if r.2.2.length ≠ 1 then .error grpcError
  else (List.range r.1.length).mapM (fun i => do return (← getUB r.1 i, ← getUB r.2.1 i, ← getUB r.2.2 i))

/-- The loop of SurfaceElevationFromGRPC.cpp:252-256: its counter hides the one of the loop over the spectra, so that both `spectrum(i)` and
`phase(i)` are read with the same index.  `target` is `s.phase`.  The loop stops at the latest when it reads a spectrum that does
not exist, so that `fuel`, the number of spectra plus one, is enough. -/
def phaseLoop (response : List (Spectrum K)) : Nat → Nat → List (List K) → Except Err (List (List K))
  | 0, _, target => .ok target
  | fuel + 1, i, target => do
    let sp ← getUB response i
    if i < sp.phase.length then do
      let p ← getUB sp.phase i
      let target ← setUB target i p
      phaseLoop response fuel (i + 1) target
    else return target

/-- Body of the loop over the spectra, SurfaceElevationFromGRPC.cpp:236-259. -/
def readSpectrum (response : List (Spectrum K)) (sp : Spectrum K) : Except Err (Spectrum K) := do
  let phase ← if sp.phase.length ≠ 0 then phaseLoop response (response.length + 1) 0 (List.replicate sp.phase.length []) else pure []
  return { sp with phase := phase }

/-- `SurfaceElevationFromGRPC::Impl::directional_spectra`, SurfaceElevationFromGRPC.cpp:224-262. -/
def directionalSpectra (s : WaveServer K) (x y t : K) : Except Err (List (Spectrum K)) := do
  let response ← call s.spectrum (x, y, t)
  response.mapM (readSpectrum response)

/-! ### What a force model asks to the wave model of the simulation -/

/-- `SurfaceElevationInterface`: the functions that the wave models implement. -/
structure WaveModel (K : Type) where
  height : List K → List K → K → Except Err (List K)
  pressure : K → K → List K → List K → List K → List K → K → Except Err (List K)
  velocity : K → List K → List K → List K → K → List K → Except Err (List (K × K × K))
  spectra : K → K → K → Except Err (List (Spectrum K))

def internalError : Err := .throw "InternalErrorException"

/-- `get_and_check_wave_height`, SurfaceElevationInterface.cpp:153-164. -/
def WaveModel.checkedHeight (w : WaveModel K) (x y : List K) (t : K) : Except Err (List K) :=
  if x.length ≠ y.length then .error internalError else w.height x y t

/-- `get_and_check_dynamic_pressure`, SurfaceElevationInterface.cpp:166-191. -/
def WaveModel.checkedPressure (w : WaveModel K) (rho g : K) (x y z eta : List K) (t : K) : Except Err (List K) :=
  if x.length ≠ y.length then .error internalError
  else if x.length ≠ z.length then .error internalError
  else if x.length ≠ eta.length then .error internalError
  else w.pressure rho g x y z eta t

/-- `get_and_check_orbital_velocity`, SurfaceElevationInterface.cpp:193-208. -/
def WaveModel.checkedVelocity (w : WaveModel K) (g : K) (x y z : List K) (t : K) (eta : List K) : Except Err (List (K × K × K)) :=
  if x.length ≠ y.length ∨ x.length ≠ z.length ∨ x.length ≠ eta.length then .error internalError else w.velocity g x y z t eta

/-- The distant wave model as a wave model, SurfaceElevationFromGRPC.cpp:317-406. -/
def WaveModel.ofServer (s : WaveServer K) : WaveModel K where
  height := elevations s
  pressure := fun _ _ x y z _ t => dynamicPressures s x y z t
  velocity := fun _ x y z t _ => orbitalVelocities s x y z t
  spectra := directionalSpectra s

/-! ### Distant force model -/

/-- `RequiredWaveInformationResponse`: what the distant model asks for (the two booleans about RAOs are not used). -/
structure Required (K : Type) where
  elevations : Points K
  pressures : Points K
  velocities : Points K
  needSpectrum : Bool
  spectrum : K × K × K

/-- `FromGRPC::to_wave_request`, FromGRPC.cpp:10-37; `elevations` has no `z`, and `z` of the pressures is not copied. -/
def toWaveRequest (r : Required K) : Required K where
  elevations := ⟨r.elevations.t, r.elevations.x, r.elevations.y, []⟩
  pressures := ⟨r.pressures.t, r.pressures.x, r.pressures.y, []⟩
  velocities := ⟨r.velocities.t, r.velocities.x, r.velocities.y, r.velocities.z⟩
  needSpectrum := r.needSpectrum
  spectrum := r.spectrum

/-- `WaveInformation`: what is sent to the distant force model. -/
structure WaveInfo (K : Type) where
  spectrum : Option (List (Spectrum K))
  velocities : Points K
  vx : List K
  vy : List K
  vz : List K
  elevations : Points K
  pressures : Points K
  pdyn : List K
deriving DecidableEq

/-- The exceptions that are caught and thrown again with another text. -/
def rethrow {α : Type} (x : Except Err α) : Except Err α :=
  match x with
  | .error (.throw _) => .error (.throw "Exception")
  | .error .ub => .error .ub
  | .ok a => .ok a

/-- `ToGRPC::from_discrete_directional_wave_spectra`, ToGRPC.cpp:26-62. -/
def fromSpectra (l : List (Spectrum K)) : List (Spectrum K) := l

/-- First part of `ToGRPC::from_wave_information`, ToGRPC.cpp:69-81: the spectra, if they are needed. -/
def spectraIfNeeded (w : WaveModel K) (r : Required K) : Except Err (Option (List (Spectrum K))) :=
  if r.needSpectrum then do
    let l ← rethrow (w.spectra r.spectrum.1 r.spectrum.2.1 r.spectrum.2.2)
    return some (fromSpectra l)
  else .ok none

/-- `ToGRPC::from_wave_information`, ToGRPC.cpp:64-155: `w` is `none` when there is no wave model. -/
def fromWaveInformation (w : Option (WaveModel K)) (rho g : K) (r : Required K) (t : K) : Except Err (WaveInfo K) :=
  match w with
  | none => .error (.throw "Exception")
  | some w => do
    let spectrum ← spectraIfNeeded w r
    let v ← rethrow (do
      let eta ← rethrow (w.checkedHeight r.velocities.x r.velocities.y r.velocities.t)
      w.checkedVelocity g r.velocities.x r.velocities.y r.velocities.z t eta)
    let z ← rethrow (w.checkedHeight r.elevations.x r.elevations.y r.elevations.t)
    let pdyn ← rethrow (do
      let eta ← w.checkedHeight r.pressures.x r.pressures.y r.pressures.t
      w.checkedPressure rho g r.pressures.x r.pressures.y r.pressures.z eta t)
    return { spectrum := spectrum,
             velocities := ⟨t, r.velocities.x, r.velocities.y, r.velocities.z⟩,
             vx := v.map (fun c => c.1), vy := v.map (fun c => c.2.1), vz := v.map (fun c => c.2.2),
             elevations := ⟨t, r.elevations.x, r.elevations.y, z⟩,
             pressures := ⟨t, r.pressures.x, r.pressures.y, r.pressures.z⟩,
             pdyn := pdyn }

/-- `States` of force.proto. -/
structure GStates (K : Type) extends States (List K) where
  t : List K
  phi : List K
  theta : List K
  psi : List K

section
variable [Field K] [LinearOrder K] [IsStrictOrderedRing K]

/-- `ToGRPC::from_state`, ToGRPC.cpp:157-195; `convert` gives the three angles of a rotation matrix (`BodyStates::convert`).  `qi[i]`, `qj[i]` and
`qk[i]` are read without test of their size. -/
def fromState (convert : Body.Mat3 K → K × K × K) (s : States (History K)) (tmax : K) : Except Err (GStates K) := do
  let qr ← s.qr.getValues tmax
  let qi ← s.qi.getValues tmax
  let qj ← s.qj.getValues tmax
  let qk ← s.qk.getValues tmax
  let angles ← (List.range qr.length).mapM (fun i => do
    let q : Body.Quat K := ⟨← getUB qr i, ← getUB qi i, ← getUB qj i, ← getUB qk i⟩
    return convert q.matrix)
  let x ← s.x.getValues tmax
  let y ← s.y.getValues tmax
  let z ← s.z.getValues tmax
  let u ← s.u.getValues tmax
  let v ← s.v.getValues tmax
  let w ← s.w.getValues tmax
  let p ← s.p.getValues tmax
  let q ← s.q.getValues tmax
  let r ← s.r.getValues tmax
  return { t := s.x.getDates tmax, x, y, z, u, v, w, p, q, r, qr, qi, qj, qk,
           phi := angles.map (fun a => a.1), theta := angles.map (fun a => a.2.1), psi := angles.map (fun a => a.2.2) }

/-- The `Force` service: what is required from the waves at a date and a position, and the force. -/
structure ForceServer (K : Type) where
  required : K × K × K × K → Int × Required K
  force : GStates K × List (String × K) × Option (WaveInfo K) → Int × ((K × K × K × K × K × K) × List (String × K))

/-- `GRPCForceModel::Impl::get_wave_information`, GRPCForceModel.cpp:225-233, with `required_wave_information`, 181-189: `none` is the empty message sent when
no wave is needed. -/
def waveInformation (srv : ForceServer K) (w : Option (WaveModel K)) (rho g : K) (needsWaves : Bool) (t x y z : K) : Except Err (Option (WaveInfo K)) :=
  if needsWaves then do
    let r ← call srv.required (t, x, y, z)
    return some (← fromWaveInformation w rho g (toWaveRequest r) t)
  else .ok none

/-- `GRPCForceModel::Impl::force`, GRPCForceModel.cpp:191-201, and
`FromGRPC::to_force`, FromGRPC.cpp:39-49: force and torque, and the new `extra_observations`. -/
def force (convert : Body.Mat3 K → K × K × K) (srv : ForceServer K) (w : Option (WaveModel K)) (rho g : K) (needsWaves : Bool) (tmax : K) (t : K)
    (s : States (History K)) (commands : List (String × K)) : Except Err (List K × List (String × K)) := do
  let states ← fromState convert s tmax
  let x ← s.x.value 0
  let y ← s.y.value 0
  let z ← s.z.value 0
  let waves ← waveInformation srv w rho g needsWaves t x y z
  let r ← call srv.force (states, commands, waves)
  let f := r.1
  return ([f.1, f.2.1, f.2.2.1, f.2.2.2.1, f.2.2.2.2.1, f.2.2.2.2.2], r.2)

end

end Xdyn.Grpc
