import Verif.Model.Mesh
import Mathlib.Analysis.Real.Sqrt

/-
Model of the parts of mesh/src/mesh_manipulations.cpp and MeshIntersector.cpp that compute areas, normals, centres of gravity and
volumes, over the real numbers.
-/

namespace Xdyn.Hull

/-- Column `i` of the matrix of nodes (reads out of the columns are excluded by the hypotheses of the theorems: all the vertices of the
facets are columns). -/
def col (nodes : List (Pt ℝ)) (i : Nat) : Pt ℝ := (nodes[i]?).getD ⟨0, 0, 0⟩

/-- The vector `(A, B, C)` of `area` and `unit_normal`, mesh_manipulations.cpp:18-26, 108-116 and 136-144. -/
def normal2 (a b c : Pt ℝ) : Pt ℝ :=
  let x1 := b.x - a.x
  let x2 := b.y - a.y
  let x3 := b.z - a.z
  let y1 := c.x - a.x
  let y2 := c.y - a.y
  let y3 := c.z - a.z
  ⟨x2 * y3 - x3 * y2, x3 * y1 - x1 * y3, x1 * y2 - x2 * y1⟩

/-- `sqrt(A*A+B*B+C*C)`, and `hypot(hypot(A,B),C)`. -/
noncomputable def norm3 (v : Pt ℝ) : ℝ := Real.sqrt (v.x * v.x + v.y * v.y + v.z * v.z)

/-- `area` of three points, mesh_manipulations.cpp:12-28. -/
noncomputable def triArea (a b c : Pt ℝ) : ℝ := 0.5 * norm3 (normal2 a b c)

/-- The loop of `area`, mesh_manipulations.cpp:34-37: `p0` is the first point, `p` the previous one. -/
noncomputable def fanFrom (p0 : Pt ℝ) : Pt ℝ → List (Pt ℝ) → ℝ
  | _, [] => 0
  | p, q :: l => triArea p0 p q + fanFrom p0 q l

/-- `area` of a polygon, mesh_manipulations.cpp:30-39 and 41-52. -/
noncomputable def polyArea : List (Pt ℝ) → ℝ
  | p0 :: p1 :: l => fanFrom p0 p1 l
  | _ => 0

/-- The threshold of mesh_manipulations.cpp:119. -/
noncomputable def tinyNormal : ℝ := 1000 * (1 / 2 ^ 52)

/-- `unit_normal`, mesh_manipulations.cpp:96-121. -/
noncomputable def unitNormal : List (Pt ℝ) → Except Err (Pt ℝ)
  | a :: b :: c :: _ =>
    let n := normal2 a b c
    let s := norm3 n
    if s < tinyNormal then .ok ⟨0, 0, 0⟩ else .ok ⟨n.x / s, n.y / s, n.z / s⟩
  | _ => .error (.throw "InternalErrorException")

/-- `Eigen::Vector3d::dot`. -/
def dot (u v : Pt ℝ) : ℝ := u.x * v.x + u.y * v.y + u.z * v.z

/-- `MeshIntersector::facet_volume`, MeshIntersector.cpp:489-496 (the member `area` of the facet is computed from the vertices when the facet is
created, MeshBuilder.cpp:66 and Mesh.cpp:69-70). -/
noncomputable def facetVolume (nodes : List (Pt ℝ)) (f : Facet ℝ) : ℝ :=
  match f.vertices with
  | [] => 0
  | v :: _ => polyArea (f.vertices.map (col nodes)) * dot f.normal (col nodes v) / 3

/-- `MeshIntersector::volume`, MeshIntersector.cpp:498-509. -/
noncomputable def volume (nodes : List (Pt ℝ)) (fs : List (Facet ℝ)) : ℝ :=
  if fs.length < 3 then 0 else (fs.map (facetVolume nodes)).sum

/-- `currentVolume`, MeshIntersector.cpp:477. -/
noncomputable def tetraVolume (P1 P2 P3 : Pt ℝ) : ℝ :=
  (P1.x * P2.y * P3.z - P1.x * P3.y * P2.z - P2.x * P1.y * P3.z + P2.x * P3.y * P1.z + P3.x * P1.y * P2.z - P3.x * P2.y * P1.z) / 6

/-- `CenterOfMass`, CenterOfMass.hpp. -/
structure CoM where
  G : Pt ℝ
  volume : ℝ

/-- The loop of `center_of_mass`, MeshIntersector.cpp:473-481: `totalVolume`, `xCenter`, `yCenter`, `zCenter`. -/
noncomputable def comLoop (P1 : Pt ℝ) : Pt ℝ → List (Pt ℝ) → ℝ × Pt ℝ → ℝ × Pt ℝ
  | _, [], s => s
  | P2, P3 :: l, (V, c) =>
    let v := tetraVolume P1 P2 P3
    comLoop P1 P3 l (V + v, ⟨c.x + (P1.x + P2.x + P3.x) / 4 * v, c.y + (P1.y + P2.y + P3.y) / 4 * v, c.z + (P1.z + P2.z + P3.z) / 4 * v⟩)

/-- `MeshIntersector::center_of_mass` of a facet, MeshIntersector.cpp:467-487 (`at(0)` throws for an empty facet). -/
noncomputable def facetCoM (points : List (Pt ℝ)) : Except Err CoM :=
  match points with
  | [] => .error (.throw "out_of_range")
  | [_] => .ok ⟨⟨0, 0, 0⟩, 0⟩
  | P1 :: P2 :: l =>
    let (V, c) := comLoop P1 P2 l (0, ⟨0, 0, 0⟩)
    .ok (if V ≠ 0 then ⟨⟨c.x / V, c.y / V, c.z / V⟩, V⟩ else ⟨⟨0, 0, 0⟩, 0⟩)

/-- `CenterOfMass::operator+=`, CenterOfMass.cpp:14-19. -/
noncomputable def CoM.add (a b : CoM) : CoM :=
  ⟨⟨a.G.x + b.G.x * b.volume, a.G.y + b.G.y * b.volume, a.G.z + b.G.z * b.volume⟩, a.volume + b.volume⟩

/-- The loops of `center_of_mass`, MeshIntersector.cpp:425-438. -/
noncomputable def comSum (nodes : List (Pt ℝ)) : CoM → List (Facet ℝ) → Except Err CoM
  | s, [] => .ok s
  | s, f :: fs => do
    let c ← facetCoM (f.vertices.map (col nodes))
    comSum nodes (s.add c) fs

/-- `MeshIntersector::center_of_mass` of a range of facets, MeshIntersector.cpp:418-442: `fs` are the facets of the range, followed by the closing
facets that are not in the range (their choice, lines 431-438, and `all_facets_are_in_same_plane` are not modelled). -/
noncomputable def centerOfMass (nodes : List (Pt ℝ)) (fs : List (Facet ℝ)) : Except Err CoM := do
  let s ← comSum nodes ⟨⟨0, 0, 0⟩, 0⟩ fs
  return if s.volume ≠ 0 then ⟨⟨s.G.x / s.volume, s.G.y / s.volume, s.G.z / s.volume⟩, |s.volume|⟩ else ⟨s.G, |s.volume|⟩

end Xdyn.Hull
