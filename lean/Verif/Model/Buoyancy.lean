/-
Model of the buoyancy computed by the force model `hydrostatic` (force_models/src/HydrostaticForceModel.cpp:30-64) from the facets of
the mesh intersector: MeshIntersector::center_of_mass of the immersed or emerged facets (mesh/src/MeshIntersector.cpp:408-442), with the
choice of the closing facets and the flag `all_facets_are_in_same_plane`. Over the real numbers; the facets and the closing facets are
those computed by Model/Mesh and Model/Closing.
-/
import Verif.Model.Closing
import Verif.Model.Forces

namespace Xdyn.Closing
open Hull

/-- The condition of MeshIntersector.cpp:428 for all the facets of the range, the first of which has the normal `ref`: flag
`all_facets_are_in_same_plane`. -/
noncomputable def samePlane (ref : Pt ℝ) (range : List (Facet ℝ)) : Bool :=
  range.all (fun f => decide (dot ref f.normal > 1 - 1 / 10 ^ 6))

/-- The closing facets added by the loop of MeshIntersector.cpp:431-438. -/
noncomputable def addedFacets (range surf : List (Facet ℝ)) (immersed : Bool) : List (Facet ℝ) :=
  (surf.map (fun f => if immersed then f else flipFacet f)).filter (fun f => !hasFacet f range)

/-- `MeshIntersector::center_of_mass(begin, end, immersed)`, MeshIntersector.cpp:418-442: centre of mass and flag. The flag is not
initialised when the range is empty (CenterOfMass.cpp:10-12): it has the arbitrary value `garbage`. -/
noncomputable def rangeCoM (garbage : Bool) (nodes : List (Pt ℝ)) (range surf : List (Facet ℝ)) (immersed : Bool) : Except Err (CoM × Bool) :=
  match range with
  | [] => .ok (⟨⟨0, 0, 0⟩, 0⟩, garbage)
  | f :: l =>
    match centerOfMass nodes ((f :: l) ++ addedFacets (f :: l) surf immersed) with
    | .error e => .error e
    | .ok c => .ok (c, samePlane f.normal (f :: l))

/-- HydrostaticForceModel::operator(), HydrostaticForceModel.cpp:30-64: `imm` are the immersed facets and `surf` the closing facets of
the body, in the body frame. -/
noncomputable def buoyancy (garbage : Bool) (rho g : ℝ) (nodes : List (Pt ℝ)) (imm surf : List (Facet ℝ)) (G : Fin 3 → ℝ)
    (R : Fin 3 → Fin 3 → ℝ) : Except Err ((Fin 3 → ℝ) × (Fin 3 → ℝ)) :=
  match rangeCoM garbage nodes imm surf true with
  | .error e => .error e
  | .ok (c, flat) => .ok (Forces.hydrostatic rho g c.volume flat ![c.G.x, c.G.y, c.G.z] G R)

end Xdyn.Closing
