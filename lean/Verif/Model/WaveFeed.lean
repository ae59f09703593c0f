import Verif.Model.Fleet
import Verif.Model.WaveGrid

/-
The wave heights written at each output date: core/src/EnvironmentAndFrames.cpp:38-63, called at the end of `Sim::output` (core/src/Sim.cpp:229) with the states that have just been written, and
core/src/SurfaceElevationInterface.cpp:18-39, 245-260 (change of frame of the mesh).

External (SSC): `Transform * PointMatrix`, the coordinates in the other frame.
Simplification: the elevation `eta` of the free surface at the date of the output is a function that does not fail.
-/

namespace Xdyn.Multi

open Blocked Body Sim WaveGrid

variable {K : Type} [Field K] [LinearOrder K] [IsStrictOrderedRing K]

/-- The loop `bodies[i]->update_kinematics(state,k)`, EnvironmentAndFrames.cpp:46-49. -/
def updateAll (bs : List (MBody K)) (x : List K) (k : Kin K) : Except Err (Kin K) :=
  bs.foldlM (fun k b => updateKinematics b x k) k

/-- `T * P` with `T` the transform from NED to the frame, `swap`ped: SurfaceElevationInterface.cpp:29-32. -/
def inNed (T : Frame K) (p : K × K × K) : K × K × K :=
  let v := T.o + T.R.mulVec ![p.1, p.2.1, p.2.2]
  (v 0, v 1, v 2)

/-- `compute_position_in_NED_frame`, SurfaceElevationInterface.cpp:18-39. -/
def positionInNed (k : Kin K) (frame : String) (mesh : List (K × K × K)) : Except Err (List (K × K × K)) :=
  if frame ≠ "NED" then
    match k.get "NED" frame with
    | .ok T => .ok (mesh.map (inNed T))
    | .error e => .error e
  else .ok mesh

/-- `SurfaceElevationInterface::get_waves_on_mesh`, SurfaceElevationInterface.cpp:245-260: an empty mesh needs no frame. -/
def wavesInFrame (k : Kin K) (frame : String) (o : Output K) (eta : K → K → K) : Except Err (List (K × K × K)) :=
  if (makeWaveMesh o).length = 0 then .ok []
  else do
    let mesh ← positionInNed k frame (makeWaveMesh o)
    return wavesOnMesh id eta mesh

/-- `EnvironmentAndFrames::feed`, EnvironmentAndFrames.cpp:38-63, with waves: what is given to the observer, if anything. -/
def feedWaves (k : Kin K) (bs : List (MBody K)) (x : List K) (frame : String) (o : Output K) (eta : K → K → K) : Except Err (Option (Grid K)) :=
  match (do
    let k ← updateAll bs x k
    let res ← wavesInFrame k frame o eta
    wavesOnGrid (meshSize o).1 (meshSize o).2 res) with
  | .ok g => .ok (if g.z.flatten.length ≠ 0 then some g else none)
  | .error e => .error (if e = .throw "KinematicsException" then .throw "InvalidInputException" else e)

/-- `Sim::output`, Sim.cpp:199-234: the date, the states and the wave heights that are written; `eta t` is the free surface at date `t`. -/
def outputWithWaves (S : FleetSetup K) (stepper : List K → K → K → Stepper K) (frame : String) (o : Output K) (eta : K → K → K → K) (s : Fleet K) (t : K) :
    Except Err (K × List K × Option (Grid K)) := do
  let (t, x) ← (fleetSystem S stepper).observe s t
  let g ← feedWaves s.kin (S.entries.map Entry.body) x frame o (eta t)
  return (t, x, g)

end Xdyn.Multi
