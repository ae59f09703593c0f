import Verif.Model.Control
import Verif.Model.Diffraction

/-
The force model `diffraction` (force_models/src/DiffractionForceModel.cpp:121-198, 220-224) as a force model of a simulation
(Model/MultiBody), on top of Model/Diffraction.

External (SSC): the Euler angles of a rotation matrix; `psiOf` is the heading of a matrix.
-/

namespace Xdyn.Sim

open Blocked Body

/-- The transforms `env.k->get("NED", frame)` after `swap()`, DiffractionForceModel.cpp:125-127, for the frames that are known. -/
noncomputable def seaFrames (k : Multi.Kin ℝ) : Sea.Frames := fun n =>
  match k.get "NED" n with
  | .ok T => some ⟨⟨T.o 0, T.o 1, T.o 2⟩, T.R⟩
  | .error _ => none

/-- `DiffractionForceModel::operator()`, DiffractionForceModel.cpp:220-224: the wrench is given in the body frame at `G`; the heading is the one of
`BodyStates::get_angles`, BodyStates.cpp:53-83, 100-103. -/
noncomputable def diffractionModel (b : Multi.MBody ℝ) (d : Sea.Diffraction) (s : Sea.Sea) (psiOf : Mat3 ℝ → ℝ) : Multi.Force ℝ := fun h k t => do
  let R ← rotationOf h
  let w ← Sea.diffractionForce d s (seaFrames k) b.name ⟨b.G 0, b.G 1, b.G 2⟩ t (psiOf R)
  return { frame := b.name, P := b.G, force := w.1, torque := w.2 }

end Xdyn.Sim
