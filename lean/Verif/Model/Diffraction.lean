/-
Model of the diffraction force: DiffractionForceModel (force_models/src/DiffractionForceModel.cpp:73-198, 220-224), from the
interpolated tables of the HDB file (Model/Hdb: `interpolateModule`, `interpolatePhase`, `checkPeriods`, `diffractionWrench`) and the
response of the sea to a RAO (Model/SeaState: `Sea.evaluateRao`), over the real numbers.

Simplifications. The 2D interpolators of SSC are arbitrary functions of the period and of the incidence, one per axis (queries outside
the tables are allowed, DiffractionInterpolator.cpp:33, 39-40). A zero angular frequency has an infinite period in the code, 0 here. The
distant wave model is not described here. The shared frame added by the constructor (lines 114-118) is not used by the force.
-/
import Verif.Model.Hdb
import Verif.Model.SeaState

namespace Xdyn.Sea
open Waves Hull

noncomputable section

/-- The members of DiffractionForceModel::Impl, DiffractionForceModel.cpp:200-207; `modules` and `phases` are the interpolators of
`rao`, one per axis: period, incidence. -/
structure Diffraction where
  H0 : Pt ℝ
  mirror : Bool
  modules : Fin 6 → ℝ → ℝ → ℝ
  phases : Fin 6 → ℝ → ℝ → ℝ
  periods : List (List ℝ)
  psis : List (List ℝ)

/-- `get_wave_angular_frequency_for_each_model`, SurfaceElevationFromWaves.cpp:94-102, WaveModel.cpp:115-118;
SurfaceElevationInterface.cpp:215-218 in still water -/
def Sea.omegas (s : Sea) : List (List ℝ) := s.spectra.map (fun f => f.comps.map (·.omega))

/-- `get_wave_directions_for_each_model`, SurfaceElevationFromWaves.cpp:82-90, WaveModel.cpp:120-123;
SurfaceElevationInterface.cpp:210-213 in still water -/
def Sea.psis (s : Sea) : List (List ℝ) := s.spectra.map (fun f => f.comps.map (·.psi))

/-- `convert_to_periods`, DiffractionForceModel.cpp:60-70 -/
def toPeriods (omegas : List (List ℝ)) : List (List ℝ) := omegas.map (fun l => l.map (fun w => 2 * Real.pi / w))

/-- Constructor of DiffractionForceModel::Impl, DiffractionForceModel.cpp:77-119; `hdbPeriods` is `get_diffraction_module_periods()`. -/
def makeDiffraction (H0 : Pt ℝ) (mirror : Bool) (modules phases : Fin 6 → ℝ → ℝ → ℝ) (hdbPeriods : List ℝ) (w : Option Sea) :
    Except Err Diffraction :=
  match w with
  | none => .error (.throw "InvalidInputException: needs a wave model")
  | some s =>
    let periods := toPeriods s.omegas
    match hdbPeriods with
    | [] => .ok ⟨H0, mirror, modules, phases, periods, s.psis⟩
    | T :: l =>
      match Hdb.checkPeriods T periods ((T :: l).getLastD T) with
      | .error e => .error e
      | .ok _ => .ok ⟨H0, mirror, modules, phases, periods, s.psis⟩

/-- The loop on the (period, incidence) pairs of a spectrum, DiffractionForceModel.cpp:147-158: modules and phases of the RAO of
axis `i`. -/
def spectrumRao (d : Diffraction) (i : Fin 6) (psi : ℝ) (n : Nat) : Except Err (List ℝ × List ℝ) := do
  let T ← getUB d.periods n
  let l ← (List.range T.length).mapM (fun j => do
    let p ← getAt d.psis n
    let w ← getAt p j
    let Tj ← getUB T j
    return (Hdb.interpolateModule (d.modules i) d.mirror i Tj (psi - w), -Hdb.interpolatePhase (d.phases i) d.mirror i Tj (psi - w)))
  return (l.map Prod.fst, l.map Prod.snd)

/-- The response of axis `i`, DiffractionForceModel.cpp:143-172: `x`, `y` are the coordinates of the calculation point in the NED
frame. -/
def axisResponse (d : Diffraction) (s : Sea) (x y t psi : ℝ) (i : Fin 6) : Except Err ℝ := do
  let l ← (List.range d.periods.length).mapM (spectrumRao d i psi)
  s.evaluateRao x y t (l.map Prod.fst) (l.map Prod.snd)

/-- A point as an Eigen vector. -/
def vec3 (p : Pt ℝ) : Fin 3 → ℝ := ![p.x, p.y, p.z]

/-- DiffractionForceModel::Impl::evaluate, DiffractionForceModel.cpp:121-191: force and torque at G in the body frame. `k` gives the
frames, `psi` is the heading (operator(), lines 220-224). -/
def diffractionForce (d : Diffraction) (s : Sea) (k : Frames) (body : String) (G : Pt ℝ) (t psi : ℝ) :
    Except Err ((Fin 3 → ℝ) × (Fin 3 → ℝ)) :=
  match k body with
  | none => .error (.throw "KinematicsException")
  | some T =>
    let P := T.apply d.H0
    match (List.finRange 6).mapM (axisResponse d s P.x P.y t psi) with
    | .error e => .error e
    | .ok w => .ok (Hdb.diffractionWrench (fun i => w.getD i 0) (vec3 d.H0) (vec3 G))

end

end Xdyn.Sea
