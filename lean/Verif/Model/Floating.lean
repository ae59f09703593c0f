import Verif.Model.Integrators
import Verif.Model.Buoyancy

/-
The force model `hydrostatic` (force_models/src/HydrostaticForceModel.cpp:30-64) as a force model of a
simulation (Model/MultiBody), on top of the buoyancy of Model/Buoyancy.
-/

namespace Xdyn.Sim

open Blocked Body

/-- What `BodyWithSurfaceForces::update_intersection_with_free_surface` (BodyWithSurfaceForces.cpp:21-38) leaves in the intersector of a body: nodes of
the mesh, immersed facets and closing facets, from the frames and the date. -/
abbrev Cut := Multi.Kin ℝ → ℝ → Except Err (List (Hull.Pt ℝ) × List (Hull.Facet ℝ) × List (Hull.Facet ℝ))

/-- `HydrostaticForceModel::operator()`, HydrostaticForceModel.cpp:30-64: the wrench is given in the body frame at
`G`. -/
noncomputable def hydrostaticModel (b : Multi.MBody ℝ) (cut : Cut) (garbage : Bool) (rho g : ℝ) : Multi.Force ℝ := fun _ k t => do
  let T ← k.get b.name "NED"
  let c ← cut k t
  let w ← Closing.buoyancy garbage rho g c.1 c.2.1 c.2.2 b.G T.R
  return { frame := b.name, P := b.G, force := w.1, torque := w.2 }

end Xdyn.Sim
