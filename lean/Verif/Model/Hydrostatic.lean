import Verif.Model.MeshVolume

/-
Model of the forces integrated on the immersed facets of a hull, over the real numbers:
code/core/inc/SurfaceForceModel.hpp:17-36, code/core/src/SurfaceForceModel.cpp:22-53,
code/force_models/src/FastHydrostaticForceModel.cpp:38-70, ExactHydrostaticForceModel.cpp:22-27,
code/mesh/src/mesh_manipulations.cpp:150-180 (`centre_of_gravity`) and 227-386
(`exact_application_point` and its helpers).
-/

namespace Xdyn.Hull

/-- Operations of `Eigen::Vector3d`. -/
def vadd (u v : Pt ℝ) : Pt ℝ := ⟨u.x + v.x, u.y + v.y, u.z + v.z⟩
def vsub (u v : Pt ℝ) : Pt ℝ := ⟨u.x - v.x, u.y - v.y, u.z - v.z⟩
def vscale (c : ℝ) (u : Pt ℝ) : Pt ℝ := ⟨c * u.x, c * u.y, c * u.z⟩
def vcross (u v : Pt ℝ) : Pt ℝ := ⟨u.y * v.z - u.z * v.y, u.z * v.x - u.x * v.z, u.x * v.y - u.y * v.x⟩

/-- The loop of `centre_of_gravity`, mesh_manipulations.cpp:154-161 and 170-178: `areas` and
`areas_times_points`. -/
noncomputable def cogLoop (p0 : Pt ℝ) : Pt ℝ → List (Pt ℝ) → ℝ × Pt ℝ → ℝ × Pt ℝ
  | _, [], s => s
  | p, q :: l, (areas, v) =>
    let S := triArea p0 p q
    cogLoop p0 q l (areas + S, vadd v (vscale (1 / 3) (vscale S (vadd (vadd p0 p) q))))

/-- `centre_of_gravity`, mesh_manipulations.cpp:150-180.  For a polygon of area zero the code
divides zero by zero (the result is not used by the force models, which test the area). -/
noncomputable def centreOfGravity : List (Pt ℝ) → Pt ℝ
  | p0 :: p1 :: l =>
    let (areas, v) := cogLoop p0 p1 l (0, ⟨0, 0, 0⟩)
    vscale (1 / areas) v
  | _ => ⟨0, 0, 0⟩

/-- `ZGCalculator::get_zG_in_NED`, SurfaceForceModel.hpp:29-32: `tz` is the depth of the origin
of the body, `d` the last line of the rotation matrix. -/
def zgInNed (tz : ℝ) (d : Pt ℝ) (G : Pt ℝ) : ℝ := tz + d.x * G.x + d.y * G.y + d.z * G.z

/-- `SurfaceForceModel::DF`: an elementary force and its point of application. -/
structure DF where
  dF : Pt ℝ
  C : Pt ℝ

/-- `FastHydrostaticForceModel::get_dF`, FastHydrostaticForceModel.cpp:50-61; `application` is
`get_application_point`.  The members `area` and `centre_of_gravity` of a facet are computed
from its vertices (Mesh.cpp:69-70, MeshBuilder.cpp:66). -/
noncomputable def hydroDF (application : Facet ℝ → ℝ → Pt ℝ) (rho g tz : ℝ) (d : Pt ℝ) (nodes : List (Pt ℝ)) (f : Facet ℝ) : DF :=
  let pts := f.vertices.map (col nodes)
  let area := polyArea pts
  if area = 0 then ⟨⟨0, 0, 0⟩, ⟨0, 0, 0⟩⟩
  else
    let zG := zgInNed tz d (centreOfGravity pts)
    let dS := vscale area f.normal
    ⟨vscale (-rho * g * zG) dS, application f zG⟩

/-- `FastHydrostaticForceModel::get_application_point`, FastHydrostaticForceModel.cpp:38-41. -/
noncomputable def fastApplication (nodes : List (Pt ℝ)) (f : Facet ℝ) (_zG : ℝ) : Pt ℝ :=
  centreOfGravity (f.vertices.map (col nodes))

/-- The six components of the wrench: force and moment. -/
structure Wrench where
  F : Pt ℝ
  M : Pt ℝ

/-- One turn of the loop of `SurfaceForceModel::operator()`, SurfaceForceModel.cpp:38-51. -/
def addDF (orientation : ℝ) (G : Pt ℝ) (W : Wrench) (f : DF) : Wrench :=
  let x := f.C.x - G.x
  let y := f.C.y - G.y
  let z := f.C.z - G.z
  { F := ⟨W.F.x + orientation * f.dF.x, W.F.y + orientation * f.dF.y, W.F.z + orientation * f.dF.z⟩
    M := ⟨W.M.x + orientation * (y * f.dF.z - z * f.dF.y),
          W.M.y + orientation * (z * f.dF.x - x * f.dF.z),
          W.M.z + orientation * (x * f.dF.y - y * f.dF.x)⟩ }

/-- `SurfaceForceModel::operator()`, SurfaceForceModel.cpp:22-53, on the list of the immersed
facets. -/
def surfaceForce (orientation : ℝ) (G : Pt ℝ) (dF : Facet ℝ → DF) (fs : List (Facet ℝ)) : Wrench :=
  fs.foldl (fun W f => addDF orientation G W (dF f)) ⟨⟨0, 0, 0⟩, ⟨0, 0, 0⟩⟩

/-- `FastHydrostaticForceModel::pe`, FastHydrostaticForceModel.cpp:64-70: `C` is the result of
`center_of_mass_immersed`, in the body frame. -/
def hydroEnergy (rho g : ℝ) (C : CoM) : ℝ := -rho * g * C.volume * C.G.z

/-! ### `exact_application_point` -/

/-- The four non zero coefficients of `inertia_of_triangle`, mesh_manipulations.cpp:227-246. -/
structure Inertia2 where
  j00 : ℝ
  j01 : ℝ
  j10 : ℝ
  j11 : ℝ

noncomputable def inertiaOfTriangle (a b c : Pt ℝ) : Inertia2 :=
  let x12 := a.x + b.x
  let x13 := a.x + c.x
  let x23 := b.x + c.x
  let y12 := a.y + b.y
  let y13 := a.y + c.y
  let y23 := b.y + c.y
  { j00 := (1 / 12) * (x12 * x12 + x13 * x13 + x23 * x23)
    j01 := (1 / 12) * (x12 * y12 + x13 * y13 + x23 * y23)
    j10 := (1 / 12) * (x12 * y12 + x13 * y13 + x23 * y23)
    j11 := (1 / 12) * (y12 * y12 + y13 * y13 + y23 * y23) }

/-- The loop of `inertia_of_polygon`, mesh_manipulations.cpp:257-264. -/
noncomputable def inertiaLoop (p0 : Pt ℝ) : Pt ℝ → List (Pt ℝ) → ℝ × Inertia2 → ℝ × Inertia2
  | _, [], s => s
  | p, q :: l, (area, J) =>
    let S := triArea p0 p q
    let T := inertiaOfTriangle p0 p q
    inertiaLoop p0 q l (area + S, ⟨J.j00 + T.j00 * S, J.j01 + T.j01 * S, J.j10 + T.j10 * S, J.j11 + T.j11 * S⟩)

/-- `inertia_of_polygon`, mesh_manipulations.cpp:248-266 (a polygon with fewer than three
vertices gives an uninitialised matrix; facets have at least three). -/
noncomputable def inertiaOfPolygon : List (Pt ℝ) → Inertia2
  | p0 :: p1 :: l =>
    let (area, J) := inertiaLoop p0 p1 l (0, ⟨0, 0, 0, 0⟩)
    ⟨J.j00 / area, J.j01 / area, J.j10 / area, J.j11 / area⟩
  | _ => ⟨0, 0, 0, 0⟩

/-- `project_facet_on_free_surface`, mesh_manipulations.cpp:354-368: `imm` are the immersions of
the vertices. -/
def projectOnFreeSurface (pts : List (Pt ℝ)) (imm : List ℝ) (down : Pt ℝ) : List (Pt ℝ) :=
  List.zipWith (fun p z => vsub p (vscale z down)) pts imm

/-- `normal_to_free_surface`, mesh_manipulations.cpp:283-299. -/
noncomputable def normalToFreeSurface (pts : List (Pt ℝ)) (imm : List ℝ) (down : Pt ℝ) : Except Err (Pt ℝ) := do
  let ns ← unitNormal (projectOnFreeSurface pts imm down)
  if norm3 ns < 0.5 then return down
  else if dot ns down < 0 then return vscale (-1) ns
  else return ns

/-- `facet_trihedron`, mesh_manipulations.cpp:301-327: the three lines `i20`, `j20`, `k20` of the
matrix.  When the facet is parallel to the free surface the matrix is not initialised (and not
used by the caller): `none`. -/
noncomputable def facetTrihedron (n ns : Pt ℝ) : Option (Pt ℝ × Pt ℝ × Pt ℝ) :=
  let i := vcross ns n
  if norm3 i < tinyNormal then none
  else
    let i := vscale (1 / norm3 i) i
    let j := vcross n i
    if dot ns j < 0 then some (vscale (-1) i, vscale (-1) j, n) else some (i, j, n)

/-- `get_inertia_of_polygon_wrt`, mesh_manipulations.cpp:370-387. -/
noncomputable def inertiaWrt (pts : List (Pt ℝ)) (R20 : Pt ℝ × Pt ℝ × Pt ℝ) : Inertia2 :=
  let G := centreOfGravity pts
  inertiaOfPolygon (pts.map (fun p => ⟨dot R20.1 (vsub p G), dot R20.2.1 (vsub p G), dot R20.2.2 (vsub p G)⟩))

/-- `exact_application_point`, mesh_manipulations.cpp:329-352. -/
noncomputable def exactApplicationPoint (pts : List (Pt ℝ)) (n : Pt ℝ) (down : Pt ℝ) (zG : ℝ) (imm : List ℝ) :
    Except Err (Pt ℝ) := do
  let ns ← normalToFreeSurface pts imm down
  let R20 := facetTrihedron n ns
  let G := centreOfGravity pts
  if norm3 (vcross n ns) < tinyNormal then return G
  else match R20 with
    | none => .error .ub
    | some R20 =>
      let J := inertiaWrt pts R20
      let yG := zG * dot ns down / dot ns R20.2.1
      let xR := J.j01 / yG
      let yR := J.j00 / yG
      return vadd G (vadd (vscale xR R20.1) (vscale yR R20.2.1))

end Xdyn.Hull
