import Verif.Model.Mesh
import Mathlib.Algebra.Order.Field.Basic

/-
Vocabulary of the mesh properties: what a mesh of triangles is, and geometry of polygons.
-/

namespace Xdyn.Hull

variable {K : Type}

/-- The oriented edge `o` runs from vertex `v` to vertex `w`: it is twice the index of an edge `(v, w)`, or
twice the index of an edge `(w, v)` plus one. -/
def Runs (edges : List (Nat × Nat)) (o v w : Nat) : Prop :=
  (o % 2 = 0 ∧ edges[o / 2]? = some (v, w)) ∨ (o % 2 = 1 ∧ edges[o / 2]? = some (w, v))

/-- Facet `f` of the mesh is the triangle `v0 v1 v2` (three different vertices), its sides are the edges `o0` (from `v0` to
`v1`), `o1` and `o2`, and these edges know that they belong to facet `f`. -/
structure IsTriangle (m : Mesh K) (f v0 v1 v2 o0 o1 o2 : Nat) : Prop where
  vertices : ∃ n, m.facets[f]? = some ⟨[v0, v1, v2], n⟩
  oriented : m.orientedEdges[f]? = some [o0, o1, o2]
  ne01 : v0 ≠ v1
  ne12 : v1 ≠ v2
  ne20 : v2 ≠ v0
  runs0 : Runs m.edges o0 v0 v1
  runs1 : Runs m.edges o1 v1 v2
  runs2 : Runs m.edges o2 v2 v0
  static : o0 / 2 < m.nbEdges ∧ o1 / 2 < m.nbEdges ∧ o2 / 2 < m.nbEdges
  known : ∀ o ∈ [o0, o1, o2], ∃ fs, m.facetsPerEdge[o / 2]? = some fs ∧ f ∈ fs

/-- A mesh of triangles, possibly with the dynamic data of a previous update. -/
structure TriMesh (m : Mesh K) : Prop where
  edges : m.nbEdges ≤ m.edges.length
  facets : m.nbFacets ≤ m.facets.length
  nodes : m.allNodes.length = m.nbNodes + m.nbEdges
  fpe : m.facetsPerEdge.length = m.nbEdges
  oe : m.orientedEdges.length = m.nbFacets
  ends : ∀ e < m.nbEdges, ∀ p, m.edges[e]? = some p → p.1 < m.nbNodes ∧ p.2 < m.nbNodes
  fpeLt : ∀ e : Nat, ∀ fs, m.facetsPerEdge[e]? = some fs → ∀ f ∈ fs, f < m.nbFacets
  triangle : ∀ f < m.nbFacets, ∃ v0 v1 v2 o0 o1 o2, IsTriangle m f v0 v1 v2 o0 o1 o2

/-- Coordinates of a node. -/
def nodeAt [Zero K] (nodes : List (Pt K)) (i : Nat) : Pt K := (nodes[i]?).getD ⟨0, 0, 0⟩

/-- Immersion of a node. -/
def immersion [Zero K] (rel : List K) (i : Nat) : K := (rel[i]?).getD 0

/-- Vector product of `B - A` by `C - A`. -/
def cross3 [Ring K] (A B C : Pt K) : Pt K :=
  let u : Pt K := ⟨B.x - A.x, B.y - A.y, B.z - A.z⟩
  let v : Pt K := ⟨C.x - A.x, C.y - A.y, C.z - A.z⟩
  ⟨u.y * v.z - u.z * v.y, u.z * v.x - u.x * v.z, u.x * v.y - u.y * v.x⟩

/-- Sum of two vectors, product by a scalar. -/
def Pt.add [Add K] (A B : Pt K) : Pt K := ⟨A.x + B.x, A.y + B.y, A.z + B.z⟩
def Pt.smul [Mul K] (c : K) (A : Pt K) : Pt K := ⟨c * A.x, c * A.y, c * A.z⟩

/-- Vector product of the vectors from the origin. -/
def Pt.cross [Ring K] (u v : Pt K) : Pt K :=
  ⟨u.y * v.z - u.z * v.y, u.z * v.x - u.x * v.z, u.x * v.y - u.y * v.x⟩

/-- Sum of the `P_i × P_(i+1)` along a path. -/
def pathCross [Ring K] : List (Pt K) → Pt K
  | [] => ⟨0, 0, 0⟩
  | [_] => ⟨0, 0, 0⟩
  | P :: Q :: l => (P.cross Q).add (pathCross (Q :: l))

/-- Twice the area vector of a closed polygon. -/
def areaVector2 [Ring K] (l : List (Pt K)) : Pt K :=
  match l with
  | [] => ⟨0, 0, 0⟩
  | P :: _ => pathCross (l ++ [P])

/-- Pairs and triples of elements of a list, in the order of the list. -/
def pairs {α : Type} : List α → List (α × α)
  | [] => []
  | a :: l => l.map (fun b => (a, b)) ++ pairs l

def triples {α : Type} : List α → List (α × α × α)
  | [] => []
  | a :: l => (pairs l).map (fun p => (a, p)) ++ triples l

/-- The polygon `l` is convex and turns in the direction of the vector `N`: all its triples of vertices make triangles
whose vector product is a non-negative multiple of `N`. -/
def ConvexAlong [Field K] [LinearOrder K] (N : Pt K) (l : List (Pt K)) : Prop :=
  ∀ t ∈ triples l, ∃ c : K, 0 ≤ c ∧ cross3 t.1 t.2.1 t.2.2 = Pt.smul c N

/-- Point `P`, with immersion `z`, is in the triangle `A B C`, and `z` is the linear interpolation of the
immersions of the vertices. -/
def InTriangle [Field K] [LinearOrder K] (A B C : Pt K) (zA zB zC : K) (P : Pt K) (z : K) : Prop :=
  ∃ a b c : K, 0 ≤ a ∧ 0 ≤ b ∧ 0 ≤ c ∧ a + b + c = 1 ∧ P = ((A.smul a).add (B.smul b)).add (C.smul c) ∧
    z = a * zA + b * zB + c * zC

/-- The polygons `ve` and `vi` are the emerged and the immersed parts of the triangle `v0 v1 v2`. -/
structure PartsOf [Field K] [LinearOrder K] (nodes : List (Pt K)) (rel : List K) (v0 v1 v2 : Nat) (ve vi : List Nat) : Prop where
  emerged : ∀ v ∈ ve, immersion rel v ≤ 0
  immersed : ∀ v ∈ vi, 0 ≤ immersion rel v
  sizeE : 3 ≤ ve.length
  sizeI : 3 ≤ vi.length
  inside : ∀ v ∈ ve ++ vi, InTriangle (nodeAt nodes v0) (nodeAt nodes v1) (nodeAt nodes v2)
    (immersion rel v0) (immersion rel v1) (immersion rel v2) (nodeAt nodes v) (immersion rel v)
  area : (areaVector2 (ve.map (nodeAt nodes))).add (areaVector2 (vi.map (nodeAt nodes))) =
    areaVector2 ([v0, v1, v2].map (nodeAt nodes))
  convexE : ConvexAlong (cross3 (nodeAt nodes v0) (nodeAt nodes v1) (nodeAt nodes v2)) (ve.map (nodeAt nodes))
  convexI : ConvexAlong (cross3 (nodeAt nodes v0) (nodeAt nodes v1) (nodeAt nodes v2)) (vi.map (nodeAt nodes))

/-! ### Sides of the immersed part -/

/-- Consecutive elements of a list. -/
def steps {α : Type} : List α → List (α × α)
  | [] => []
  | [_] => []
  | a :: b :: l => (a, b) :: steps (b :: l)

/-- The sides of a closed polygon, in order. -/
def ring {α : Type} (l : List α) : List (α × α) :=
  match l with
  | [] => []
  | a :: _ => steps (l ++ [a])

/-- A list of sides is closed if each side is run as many times in one direction as in the other one. -/
def ClosedSides {α : Type} (l : List (α × α)) : Prop := l.Perm (l.map Prod.swap)

/-- A vertex with its immersion. -/
abbrev Vtx (K : Type) := Pt K × K

/-- Node `i` with its immersion. -/
def vtx [Zero K] (nodes : List (Pt K)) (rel : List K) (i : Nat) : Vtx K := (nodeAt nodes i, immersion rel i)

/-- The point of the segment `A B` where the immersion (linear along the segment) is zero. -/
def crossingOf [Field K] (A B : Vtx K) : Vtx K :=
  ((A.1.smul (1 - A.2 / (A.2 - B.2))).add (B.1.smul (A.2 / (A.2 - B.2))), 0)

/-- The part of the side from `A` to `B` that is under the free surface. -/
def underSide [Field K] [LinearOrder K] (A B : Vtx K) : List (Vtx K × Vtx K) :=
  if 0 ≤ A.2 ∧ 0 ≤ B.2 then [(A, B)]
  else if 0 < A.2 ∧ B.2 < 0 then [(A, crossingOf A B)]
  else if A.2 < 0 ∧ 0 < B.2 then [(crossingOf A B, B)]
  else []

/-- A side that does not lie in the free surface. -/
def wet [Zero K] [DecidableEq K] (s : Vtx K × Vtx K) : Bool := !(s.1.2 == 0 && s.2.2 == 0)

/-- Apart from sides lying in the free surface, the sides of the polygon `vi` are the parts of the sides of the
triangle `v0 v1 v2` that are under the free surface. -/
def WetSides [Field K] [LinearOrder K] (nodes : List (Pt K)) (rel : List K) (v0 v1 v2 : Nat) (vi : List Nat) : Prop :=
  ((ring (vi.map (vtx nodes rel))).filter wet).Perm
    (((ring ([v0, v1, v2].map (vtx nodes rel))).flatMap (fun s => underSide s.1 s.2)).filter wet)

end Xdyn.Hull
