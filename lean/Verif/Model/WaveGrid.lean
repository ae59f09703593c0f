import Verif.Model.Common
import Mathlib.Algebra.Field.Basic
import Mathlib.Algebra.Order.Field.Basic

/-
Model of core/src/SurfaceElevationBuilder.cpp and of the output part of core/src/SurfaceElevationInterface.cpp, over a field `K`.
-/

namespace Xdyn.WaveGrid

variable {K : Type} [Field K] [DecidableEq K]

/-- `YamlWaveOutput` (without the file format): the mesh the user asks for. -/
structure Output (K : Type) where
  xmin : K
  xmax : K
  nx : Nat
  ymin : K
  ymax : K
  ny : Nat

/-- `get_wave_mesh_step_size`, SurfaceElevationBuilder.cpp:16-21 (one direction). -/
def step (lo hi : K) (n : Nat) : K := (hi - lo) / ((if n > 1 then n - 1 else 1 : Nat) : K)

/-- `get_wave_mesh_size`, SurfaceElevationBuilder.cpp:23-29 (one direction; also lines 37-38). -/
def size (d : K) (n : Nat) : Nat := if d = 0 ∧ n ≠ 0 then 1 else n

def meshSize (o : Output K) : Nat × Nat := (size (step o.xmin o.xmax o.nx) o.nx, size (step o.ymin o.ymax o.ny) o.ny)

/-- `make_wave_mesh`, SurfaceElevationBuilder.cpp:31-53: the columns of the matrix. -/
def makeWaveMesh (o : Output K) : List (K × K × K) :=
  let dx := step o.xmin o.xmax o.nx
  let dy := step o.ymin o.ymax o.ny
  ((List.range (size dy o.ny)).map (fun (j : Nat) =>
    (List.range (size dx o.nx)).map (fun (i : Nat) => (o.xmin + (i : K) * dx, o.ymin + (j : K) * dy, (0 : K))))).flatten

/-- `get_waves_on_mesh` and `get_points_on_free_surface`, SurfaceElevationInterface.cpp:253-260 and 55-80: `T` converts a point to the NED frame
(SurfaceElevationInterface.cpp:18-39; the transform itself comes from ssc), `eta` is the elevation at the current date. -/
def wavesOnMesh (T : K × K × K → K × K × K) (eta : K → K → K) (mesh : List (K × K × K)) : List (K × K × K) :=
  mesh.map (fun p => ((T p).1, (T p).2.1, eta (T p).1 (T p).2.1))

/-- `SurfaceElevationGrid`: x, y, and z as a function of the two indices (a `nx`×`ny` matrix). -/
structure Grid (K : Type) where
  nx : Nat
  ny : Nat
  x : List K
  y : List K
  z : List (List K)
deriving DecidableEq

/-- `get_waves_on_mesh_as_a_grid`, SurfaceElevationInterface.cpp:262-300; `z` is given column by column (`z[j][i]` is `s.z(i,j)`). Out of bounds accesses of the
matrix are undefined behaviour. -/
def wavesOnGrid (nx ny : Nat) (res : List (K × K × K)) : Except Err (Grid K) :=
  if res.length = 0 then .ok ⟨0, 0, [], [], []⟩
  else if nx * ny ≠ res.length then .error (.throw "Exception")
  else do
    let x ← (List.range nx).mapM (fun i => do return (← getUB res i).1)
    let y ← (List.range ny).mapM (fun j => do return (← getUB res (j * nx)).2.1)
    let z ← (List.range ny).mapM (fun j => (List.range nx).mapM (fun i => do return (← getUB res (j * nx + i)).2.2))
    return ⟨nx, ny, x, y, z⟩

end Xdyn.WaveGrid
