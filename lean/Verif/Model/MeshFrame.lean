import Verif.Model.Hydrostatic
import Verif.Model.Body

/-
Model of `BodyBuilder::change_mesh_ref_frame`, code/core/src/BodyBuilder.cpp:51-65.

SSC's `Transform(t, R, frame)` applied to a point `p` is `R p + t`, and its inverse has the
rotation `R^T` and the translation `-R^T t` (this is how code/core/src/SurfaceElevationInterface.cpp:28-31
uses it).
-/

namespace Xdyn.Hull

open Body

/-- A rotation matrix applied to a vector. -/
def rotate (R : Mat3 ℝ) (v : Pt ℝ) : Pt ℝ :=
  ⟨R 0 0 * v.x + R 0 1 * v.y + R 0 2 * v.z, R 1 0 * v.x + R 1 1 * v.y + R 1 2 * v.z, R 2 0 * v.x + R 2 1 * v.y + R 2 2 * v.z⟩

/-- `ssc::kinematics::Transform`: translation and rotation. -/
structure Transform where
  t : Pt ℝ
  r : Mat3 ℝ

/-- `Transform::operator*(Point)`. -/
def Transform.apply (T : Transform) (p : Pt ℝ) : Pt ℝ := vadd (rotate T.r p) T.t

/-- `Transform::inverse`. -/
def Transform.inverse (T : Transform) : Transform :=
  ⟨vscale (-1) (rotate T.r.transpose T.t), T.r.transpose⟩

/-- `BodyBuilder::change_mesh_ref_frame` after the mesh has been built, BodyBuilder.cpp:53-64.  The
member `centre_of_gravity` of the facets (line 61) is treated apart. -/
def changeMeshRefFrame (t : Pt ℝ) (R : Mat3 ℝ) (m : Mesh ℝ) : Mesh ℝ :=
  let T := (Transform.mk t R).inverse
  { m with allNodes := m.allNodes.map T.apply, facets := m.facets.map (fun f => { f with normal := rotate T.r f.normal }) }

/-- The member `centre_of_gravity` of the facets: MeshBuilder.cpp:66, then BodyBuilder.cpp:61. -/
noncomputable def movedCentre (t : Pt ℝ) (R : Mat3 ℝ) (pts : List (Pt ℝ)) : Pt ℝ :=
  (Transform.mk t R).inverse.apply (centreOfGravity pts)

/-- `Body::update_projection_of_z_in_mesh_frame`, code/core/src/Body.cpp:99-105: the down direction
given to `exact_application_point`.  `R` is the attitude of the body: the matrix which gives the NED
coordinates of a vector from its body coordinates (`k->get("NED", body)`, as used in
code/core/src/Sim.cpp); `M` is `states.mesh_to_body`, the rotation
registered by code/core/src/Body.cpp:41-52, so that `k->get("NED", "mesh(...)")` is `R M^T`. -/
def gInMeshFrame (R M : Mat3 ℝ) (g : ℝ) : Pt ℝ := rotate (R * M.transpose) ⟨0, 0, g⟩

end Xdyn.Hull
