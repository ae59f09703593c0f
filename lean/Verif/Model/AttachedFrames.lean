import Verif.Model.WaveFeed

/-
The frame in which a controlled force is given (section 'position of ... frame' of the force models): constructor and `operator()` of core/src/ControllableForceModel.cpp (lines 20-30 and 53-76),
core/src/yaml2eigen.cpp:56-61 (`make_transform`).

External (SSC): `Kinematics::add` adds a transform between two frames, `Kinematics::get` composes the transforms on the way from one frame to the other and throws a `KinematicsException` when there is
no way.
Simplifications: the transforms added by the force models are replayed, in the order of the force models, on the frames of the bodies as they are when the force is evaluated, so that a frame that refers
to the frame of another force model is known if this one comes before; the rotation of the file is the matrix `R` (`angle2matrix`, Model/Setup).
-/

namespace Xdyn.Multi

open Blocked Body Sim

variable {K : Type} [Field K] [LinearOrder K] [IsStrictOrderedRing K]

/-- `from_internal_frame_to_a_known_frame`, ControllableForceModel.cpp:27: the frame `name` has its origin at `o` in the frame `parent`, and its axes turned by `R`. -/
structure Attached (K : Type) where
  name : String
  parent : String
  o : Vec3 K
  R : Mat3 K

/-- `env.k->add(from_internal_frame_to_a_known_frame)`, ControllableForceModel.cpp:29, seen from NED. -/
def attach (k : Kin K) (a : Attached K) : Kin K :=
  match frameOf k a.parent with
  | some P => k.set a.name ⟨P.o + P.R.mulVec a.o, P.R * a.R⟩
  | none => k

/-- All the frames of the force models. -/
def attachAll (as : List (Attached K)) (k : Kin K) : Kin K := as.foldl attach k

/-- `ControllableForceModel::operator()`, ControllableForceModel.cpp:53-76: `law` is `get_force`, in the internal frame `name`. -/
def controlledIn (as : List (Attached K)) (b : MBody K) (name : String) (law : Controlled K) : Controlled K := fun c h k t => do
  let F ← law c h k t
  let T ← (attachAll as k).get b.name name
  return controlledWrenchAtG T.R T.o b.G F.1 F.2

end Xdyn.Multi
