import Verif.Model.Control

/-
The force model `linear hydrostatics` (force_models/src/LinearHydrostaticForceModel.cpp) as a force model of a simulation
(Model/MultiBody), on top of the law of Model/Forces.

External: the Euler angles of a rotation matrix (SSC), `anglesOf`, and the wave model, `waves`, whose values are the wave
heights at a list of points at a date.
-/

namespace Xdyn.Sim

open Blocked Body

/-- `LinearHydrostaticForceModel::Input` (LinearHydrostaticForceModel.cpp:18-34), with the four points where the wave heights are
taken; the rows `K1`, `K2` and `K3` of the stiffness have at least three elements (otherwise the constructor, lines 60-84,
fails with `std::out_of_range`). -/
structure LinearHydrostatics where
  K : Fin 3 → Fin 3 → ℝ
  zEq : ℝ
  phiEq : ℝ
  thetaEq : ℝ
  x : Fin 4 → ℝ
  y : Fin 4 → ℝ

/-- Distance between two of the points, e.g. `d12((P1-P2).norm())`, LinearHydrostaticForceModel.cpp:70-73. -/
noncomputable def LinearHydrostatics.distance (c : LinearHydrostatics) (i j : Fin 4) : ℝ :=
  Real.sqrt ((c.x i - c.x j) ^ 2 + (c.y i - c.y j) ^ 2)

/-- The points in NED, from their positions in the axes of the body: `T * P1` after `T.swap()`, LinearHydrostaticForceModel.cpp:103-108. -/
noncomputable def LinearHydrostatics.pointInNed (c : LinearHydrostatics) (T : Multi.Frame ℝ) (i : Fin 4) : Vec3 ℝ :=
  T.o + T.R.mulVec ![c.x i, c.y i, 0]

/-- `LinearHydrostaticForceModel::get_zH`, LinearHydrostaticForceModel.cpp:101-121. -/
noncomputable def LinearHydrostatics.waveHeights (c : LinearHydrostatics) (b : Multi.MBody ℝ)
    (waves : List ℝ → List ℝ → ℝ → Except Err (List ℝ)) (k : Multi.Kin ℝ) (t : ℝ) : Except Err (List ℝ) := do
  let T ← k.get "NED" b.name
  waves ((List.finRange 4).map fun i => c.pointInNed T i 0) ((List.finRange 4).map fun i => c.pointInNed T i 1) t

/-- `LinearHydrostaticForceModel::operator()`, LinearHydrostaticForceModel.cpp:123-136; `z[0]`... are not checked. -/
noncomputable def linearHydrostaticModel (b : Multi.MBody ℝ) (c : LinearHydrostatics) (anglesOf : Mat3 ℝ → ℝ × ℝ × ℝ)
    (waves : List ℝ → List ℝ → ℝ → Except Err (List ℝ)) : Multi.Force ℝ := fun h k t => do
  let z ← c.waveHeights b waves k t
  let z0 ← getUB z 0
  let z1 ← getUB z 1
  let z2 ← getUB z 2
  let z3 ← getUB z 3
  let R ← rotationOf h
  let zb ← h.z.value 0
  let F := Forces.linearHydrostatic c.K c.zEq c.phiEq c.thetaEq (c.distance 0 1) (c.distance 2 3) (c.distance 1 3) (c.distance 0 2)
    ![z0, z1, z2, z3] zb (anglesOf R).1 (anglesOf R).2.1
  return ⟨b.name, b.G, ![0, 0, F 0], ![F 1, F 2, 0]⟩

end Xdyn.Sim
