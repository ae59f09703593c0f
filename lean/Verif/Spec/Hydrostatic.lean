import Verif.Spec.Mesh
import Mathlib.Data.Real.Basic

/-
Vocabulary used to state Archimedes' principle for the hydrostatic forces (C105).
-/

namespace Xdyn.Hull

/-- Depth, under the calm free surface, of the point `p` of the body frame: `tz` is the depth of the origin of the body frame and `d` the unit
vector pointing down, in the body frame. -/
def depthAt (tz : ℝ) (d p : Pt ℝ) : ℝ := tz + d.x * p.x + d.y * p.y + d.z * p.z

/-- The triangles `(p0, p1, p2)`, `(p0, p2, p3)`, ... of the polygon `p0 p1 p2 p3 ...`. -/
def fanTriangles : List (Pt ℝ) → List (Pt ℝ × Pt ℝ × Pt ℝ)
  | [] => []
  | p0 :: l => (steps l).map (fun s => (p0, s.1, s.2))

/-- Signed volume of the tetrahedron `O a b c`. -/
noncomputable def solidVolume (O : Pt ℝ) (t : Pt ℝ × Pt ℝ × Pt ℝ) : ℝ :=
  ((t.1.x - O.x) * (cross3 O t.2.1 t.2.2).x + (t.1.y - O.y) * (cross3 O t.2.1 t.2.2).y + (t.1.z - O.z) * (cross3 O t.2.1 t.2.2).z) / 6

/-- Its first moment: the volume times its centroid. -/
noncomputable def solidMoment (O : Pt ℝ) (t : Pt ℝ × Pt ℝ × Pt ℝ) : Pt ℝ :=
  Pt.smul (solidVolume O t / 4) (((O.add t.1).add t.2.1).add t.2.2)

def ptSum (l : List (Pt ℝ)) : Pt ℝ := ⟨(l.map Pt.x).sum, (l.map Pt.y).sum, (l.map Pt.z).sum⟩

/-- The polygon `pts` is convex and `n` is its unit normal. -/
structure FlatFacet (pts : List (Pt ℝ)) (n : Pt ℝ) : Prop where
  size : 3 ≤ pts.length
  unit : n.x * n.x + n.y * n.y + n.z * n.z = 1
  convex : ConvexAlong n pts

/-- First moment of the depth on a triangle (integral of the depth times the position over the triangle, see `mean_product`), divided by its
area. -/
noncomputable def depthMoment (tz : ℝ) (d : Pt ℝ) (t : Pt ℝ × Pt ℝ × Pt ℝ) : Pt ℝ :=
  let za := depthAt tz d t.1
  let zb := depthAt tz d t.2.1
  let zc := depthAt tz d t.2.2
  Pt.smul (1 / 12) ((Pt.smul (za + zb + zc) ((t.1.add t.2.1).add t.2.2)).add (((Pt.smul za t.1).add (Pt.smul zb t.2.1)).add (Pt.smul zc t.2.2)))

end Xdyn.Hull
