/-
Model of the check of the orientation of a mesh: `oriented_clockwise` and `barycenter`, mesh/src/mesh_manipulations.cpp:54-94,
193-225, called by the constructor of MeshBuilder (mesh/src/MeshBuilder.cpp:7-18), over the real numbers. (The barycentre of a mesh
without points is not a number in the code; here it is the origin. It is not used: all the facets have less than three points.)
-/
import Verif.Model.MeshVolume

namespace Xdyn.Hull

/-- Sums of the coordinates, in the order of the points. -/
def sumPts (l : List (Pt ℝ)) : Pt ℝ := l.foldl (fun s p => ⟨s.x + p.x, s.y + p.y, s.z + p.z⟩) ⟨0, 0, 0⟩

/-- `barycenter` of a polygon, mesh_manipulations.cpp:54-57 -/
noncomputable def barycenter (l : List (Pt ℝ)) : Pt ℝ := ⟨(sumPts l).x / l.length, (sumPts l).y / l.length, (sumPts l).z / l.length⟩

/-- `barycenter` of all the points of a mesh, mesh_manipulations.cpp:74-94 -/
noncomputable def meshBarycenter (v : List (List (Pt ℝ))) : Pt ℝ := barycenter v.flatten

/-- `oriented_clockwise` of a facet, mesh_manipulations.cpp:216-225 -/
noncomputable def facetClockwise (f : List (Pt ℝ)) (G : Pt ℝ) : Except Err Bool :=
  if f.length < 3 then .ok true
  else
    match unitNormal f with
    | .error e => .error e
    | .ok n =>
      let C := barycenter f
      .ok (decide (dot n ⟨C.x - G.x, C.y - G.y, C.z - G.z⟩ ≤ 0))

/-- The loops of `oriented_clockwise`, mesh_manipulations.cpp:196-206: numbers of facets clockwise and anticlockwise -/
noncomputable def countClockwise (G : Pt ℝ) : List (List (Pt ℝ)) → Nat × Nat → Except Err (Nat × Nat)
  | [], n => .ok n
  | f :: l, n =>
    match facetClockwise f G with
    | .error e => .error e
    | .ok true => countClockwise G l (n.1 + 1, n.2)
    | .ok false => countClockwise G l (n.1, n.2 + 1)

/-- `oriented_clockwise` of a mesh, mesh_manipulations.cpp:193-214 -/
noncomputable def orientedClockwise (v : List (List (Pt ℝ))) (O : Pt ℝ) : Except Err Bool :=
  if v.length < 2 then .ok true
  else
    match countClockwise O v (0, 0) with
    | .error e => .error e
    | .ok (cw, acw) =>
      if cw > 10 * acw then .ok true
      else if acw > 10 * cw then .ok false
      else .error (.throw "MeshException: not all facets have the same orientation")

/-- `MeshBuilder(v).build()`, MeshBuilder.cpp:7-18 and 43-55: the orientation, then the mesh -/
noncomputable def checkedBuild (v : List (List (Pt ℝ))) : Except Err (Bool × Mesh ℝ) :=
  match orientedClockwise v (meshBarycenter v) with
  | .error e => .error e
  | .ok clockwise =>
    match build unitNormal v with
    | .error e => .error e
    | .ok m => .ok (clockwise, m)

end Xdyn.Hull
