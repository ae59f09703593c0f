import Verif.Model.Common
import Mathlib.Algebra.Order.Field.Basic

/-
Model of mesh/src/Mesh.cpp, MeshBuilder.cpp, MeshIntersector.cpp and of the parts of
mesh_manipulations.cpp they use.

Coordinates and immersions are in an arbitrary ordered field `K` (no rounding, no NaN).
`std::vector::operator[]` and `Eigen::Matrix::col` out of bounds are undefined behaviour
(`Err.ub`).  The two vectors `edges[0]`, `edges[1]`, always of the same size, are one list of
pairs.  The fields `area` and `centre_of_gravity` of `Facet` are not stored: they are the
functions `area`, `centre_of_gravity` of the nodes and of `vertex_index`, and the nodes of a
facet do not change during the life of the facet.
`ClosingFacetComputer` (closing facets on the free surface) is not modelled.
-/

namespace Xdyn.Hull

/-- `EPoint`, interfaces GeometricTypes3d.hpp:9. -/
structure Pt (K : Type) where
  x : K
  y : K
  z : K
deriving DecidableEq, Repr

/-- `Facet`, GeometricTypes3d.hpp:20-32 (without `area` and `centre_of_gravity`). -/
structure Facet (K : Type) where
  vertices : List Nat
  normal : Pt K
deriving DecidableEq, Repr

/-- `Mesh`, Mesh.hpp:68-78 (without `orientation_factor`, `nodes` which is the beginning of
`all_nodes`). -/
structure Mesh (K : Type) where
  edges : List (Nat × Nat)
  facets : List (Facet K)
  facetsPerEdge : List (List Nat)
  orientedEdges : List (List Nat)
  nbNodes : Nat
  nbEdges : Nat
  nbFacets : Nat
  allNodes : List (Pt K)
  total : Nat
deriving DecidableEq, Repr

variable {K : Type}

/-- `Mesh::convert_index_to_oriented_edge_id`, Mesh.cpp:90-94 (`size_t` overflow of the shift is not
modelled: fewer than 2^63 edges). -/
def orientedId (e : Nat) (reversed : Bool) : Nat := (e <<< 1) ||| (if reversed then 1 else 0)

/-- `Mesh::convert_oriented_edge_id_to_edge_index`, Mesh.cpp:96-100. -/
def edgeIndex (o : Nat) : Nat := o >>> 1

/-- `Mesh::get_oriented_edge_direction`, Mesh.cpp:102-105. -/
def edgeReversed (o : Nat) : Bool := (o &&& 1) != 0

/-- `edges[dir][e]` for `dir` 0 or 1. -/
def endOf (edges : List (Nat × Nat)) (dir : Nat) (e : Nat) : Except Err Nat := do
  let p ← getUB edges e
  return if dir = 0 then p.1 else p.2

/-- `Mesh::first_vertex_of_oriented_edge`, Mesh.cpp:110-115. -/
def firstVertex (edges : List (Nat × Nat)) (o : Nat) : Except Err Nat := endOf edges (o &&& 1) (o >>> 1)

/-- `Mesh::second_vertex_of_oriented_edge`, Mesh.cpp:120-125. -/
def secondVertex (edges : List (Nat × Nat)) (o : Nat) : Except Err Nat := endOf edges (1 - (o &&& 1)) (o >>> 1)

/-- The loop of `Mesh::create_facet_from_edges`, Mesh.cpp:59-68: `vs` are the second vertices of
the edges; `vertex_list` (of size `n`, initially 0) is written at position `ei` only for a vertex not yet
seen. -/
def facetLoop : List Nat → List Nat → List Nat
  | _, [] => []
  | seen, v :: vs => (if v ∈ seen then 0 else v) :: facetLoop (v :: seen) vs

/-- Number of different vertices (`nb_of_vertices`, Mesh.cpp:58-68). -/
def nbDistinct : List Nat → List Nat → Nat
  | _, [] => 0
  | seen, v :: vs => (if v ∈ seen then 0 else 1) + nbDistinct (v :: seen) vs

/-- Vertices of the facet built by `Mesh::create_facet_from_edges`, Mesh.cpp:53-73. -/
def facetVertices (edges : List (Nat × Nat)) (l : List Nat) : Except Err (List Nat) := do
  let vs ← l.mapM (secondVertex edges)
  return (facetLoop [] vs).take (nbDistinct [] vs)

/-- `Mesh::reset_dynamic_data`, Mesh.cpp:45-51. -/
def Mesh.reset (m : Mesh K) : Mesh K :=
  { m with total := m.nbNodes, edges := m.edges.take m.nbEdges, facets := m.facets.take m.nbFacets }

/-! ### Immersion of the edges -/

/-- `MeshIntersector::get_edge_immersion_status`, MeshIntersector.cpp:314-324. -/
def edgeStatus [LinearOrder K] [Zero K] (z0 z1 : K) : Nat :=
  (if z0 > 0 then 1 else 0) ||| (if z1 > 0 then 2 else 0) ||| (if z0 < 0 then 4 else 0) ||| (if z1 < 0 then 8 else 0)

/-- MeshIntersector.cpp:326-329. -/
def crosses (s : Nat) : Bool := s == 9 || s == 6
/-- MeshIntersector.cpp:331-334. -/
def isEmerged (s : Nat) : Bool := s == 12 || s == 8 || s == 4
/-- MeshIntersector.cpp:336-339. -/
def isImmersed (s : Nat) : Bool := s == 1 || s == 2 || s == 3
/-- MeshIntersector.cpp:341-344. -/
def oneEndTouches (s : Nat) : Bool := s == 1 || s == 2 || s == 4 || s == 8
/-- MeshIntersector.cpp:346-349. -/
def bothTouch (s : Nat) : Bool := s == 0

/-- `MeshIntersector::edge_intersection`, MeshIntersector.cpp:299-312. -/
def edgeIntersection [Field K] (A : Pt K) (dzA : K) (B : Pt K) (dzB : K) : Pt K :=
  let k := dzA / (dzA - dzB)
  { x := A.x + k * (B.x - A.x), y := A.y + k * (B.y - A.y), z := A.z + k * (B.z - A.z) }

/-- Data of the loop on the edges (members of `MeshIntersector` and local variables of
`update_intersection_with_free_surface`, MeshIntersector.cpp:116-129). -/
structure EdgeSt (K : Type) where
  edges : List (Nat × Nat)
  allNodes : List (Pt K)
  total : Nat
  rel : List K
  wave : List K
  status : List Nat
  split : List Nat
  crossing : List Bool
deriving DecidableEq, Repr

/-- `v[i] = x` for a vector (or `M.col(i) = x`). -/
def setUB {α : Type} (l : List α) (i : Nat) (x : α) : Except Err (List α) :=
  if i < l.length then .ok (l.set i x) else .error .ub

variable [Field K] [LinearOrder K]

/-- `MeshIntersector::split_partially_immersed_edge`, MeshIntersector.cpp:255-277, with `Mesh::add_vertex`,
Mesh.cpp:82-88, and `Mesh::add_edge`, 75-80. -/
def splitEdge (s : EdgeSt K) (e : Nat) : Except Err (EdgeSt K × Nat) := do
  let (a, b) ← getUB s.edges e
  let A ← getUB s.allNodes a
  let B ← getUB s.allNodes b
  let dzA ← getUB s.rel a
  let dzB ← getUB s.rel b
  let zA ← getUB s.wave a
  let zB ← getUB s.wave b
  let nodes ← setUB s.allNodes s.total (edgeIntersection A dzA B dzB)
  let k := dzA / (dzA - dzB)
  let st ← getUB s.status e
  return ({ s with
    allNodes := nodes
    total := s.total + 1
    rel := s.rel ++ [0]
    wave := s.wave ++ [zA + k * (zB - zA)]
    edges := s.edges ++ [(a, s.total), (s.total, b)]
    status := s.status ++ [((st &&& 1) * 3) ||| 4, ((st &&& 2) / 2 * 3) ||| 4] }, s.edges.length)

/-- The loop of MeshIntersector.cpp:62-65. -/
def markFacets : List Nat → List Bool → Except Err (List Bool)
  | [], c => .ok c
  | f :: fs, c => do
    let c ← setUB c f true
    markFacets fs c

/-- Body of the loop of `MeshIntersector::find_intersection_with_free_surface`,
MeshIntersector.cpp:50-66. -/
def edgeStep (facetsPerEdge : List (List Nat)) (s : EdgeSt K) (e : Nat) : Except Err (EdgeSt K) := do
  let (a, b) ← getUB s.edges e
  let z0 ← getUB s.rel a
  let z1 ← getUB s.rel b
  let st := edgeStatus z0 z1
  let status ← setUB s.status e st
  let s := { s with status := status }
  let s ← if crosses st then do
      let (s, i) ← splitEdge s e
      let split ← setUB s.split e i
      pure { s with split := split }
    else pure s
  if crosses st || bothTouch st || oneEndTouches st then do
    let fs ← getUB facetsPerEdge e
    let c ← markFacets fs s.crossing
    return { s with crossing := c }
  else return s

/-! ### Facets -/

/-- Local variables of `split_partially_immersed_facet_and_classify`, MeshIntersector.cpp:175-180. -/
structure SplitSt where
  emerged : List Nat := []
  immersed : List Nat := []
  status : Int := -1
  firstEmerged : Nat := 0
  firstImmersed : Nat := 0
  surface : List Nat := []
deriving DecidableEq, Repr

/-- Body of the loop of `split_partially_immersed_facet_and_classify`,
MeshIntersector.cpp:182-227. -/
def splitStep (status split : List Nat) (s : SplitSt) (o : Nat) : Except Err SplitSt := do
  let e := edgeIndex o
  let st ← getUB status e
  if bothTouch st then
    let em := s.emerged ++ [o]
    let im := s.immersed ++ [o]
    return { s with
      emerged := em
      immersed := im
      surface := e :: s.surface
      firstEmerged := if s.status = 3 then em.length else s.firstEmerged
      firstImmersed := if s.status = 0 then im.length else s.firstImmersed }
  else if isEmerged st then
    return { s with
      firstEmerged := if s.status = 3 then s.emerged.length else s.firstEmerged
      emerged := s.emerged ++ [o]
      status := 0 }
  else if isImmersed st then
    return { s with
      firstImmersed := if s.status = 0 then s.immersed.length else s.firstImmersed
      immersed := s.immersed ++ [o]
      status := 3 }
  else
    let rev := edgeReversed o
    let e1 ← getUB split e
    let (e1, e2) := if rev then (e1 + 1, e1) else (e1, e1 + 1)
    let st1 ← getUB status e1
    if isEmerged st1 then
      return { s with
        emerged := s.emerged ++ [orientedId e1 rev]
        firstImmersed := s.immersed.length
        immersed := s.immersed ++ [orientedId e2 rev]
        status := 3 }
    else
      return { s with
        immersed := s.immersed ++ [orientedId e1 rev]
        firstEmerged := s.emerged.length
        emerged := s.emerged ++ [orientedId e2 rev]
        status := 0 }

/-- Data modified by the loop on the facets (`surface`: the set
`index_of_edges_exactly_on_surface`, in any order). -/
structure FacetSt (K : Type) where
  edges : List (Nat × Nat)
  facets : List (Facet K)
  emerged : List Nat
  immersed : List Nat
  surface : List Nat
deriving DecidableEq, Repr

/-- `MeshIntersector::split_partially_immersed_facet_and_classify`, MeshIntersector.cpp:169-253.
`v.insert(v.begin()+i, x)` is `List.insertIdx` (with `i ≤ size`, which follows from the access to
`v[i]` just before). -/
def splitFacet (status split : List Nat) (orientedEdges : List (List Nat)) (s : FacetSt K) (f : Nat) :
    Except Err (FacetSt K) := do
  let os ← getUB orientedEdges f
  let p ← os.foldlM (splitStep status split) { surface := s.surface }
  if p.emerged.length ≤ 1 then return { s with immersed := s.immersed ++ [f], surface := p.surface }
  else if p.immersed.length ≤ 1 then return { s with emerged := s.emerged ++ [f], surface := p.surface }
  else
    let oi ← getUB p.immersed p.firstImmersed
    let oe ← getUB p.emerged p.firstEmerged
    let a ← firstVertex s.edges oi
    let b ← firstVertex s.edges oe
    let edges := s.edges ++ [(a, b)]
    let c := s.edges.length
    let surface := if a = b then p.surface else c :: p.surface
    let im := p.immersed.insertIdx p.firstImmersed (orientedId c true)
    let em := p.emerged.insertIdx p.firstEmerged (orientedId c false)
    let facet ← getUB s.facets f
    let ve ← facetVertices edges em
    let vi ← facetVertices edges im
    return { edges := edges
             facets := s.facets ++ [{ vertices := ve, normal := facet.normal }, { vertices := vi, normal := facet.normal }]
             emerged := s.emerged ++ [s.facets.length]
             immersed := s.immersed ++ [s.facets.length + 1]
             surface := surface }

/-- `MeshIntersector::classify_facet`, MeshIntersector.cpp:91-102. -/
def classifyFacet (status : List Nat) (orientedEdges : List (List Nat)) (s : FacetSt K) (f : Nat) :
    Except Err (FacetSt K) := do
  let os ← getUB orientedEdges f
  let o ← getUB os 0
  let st ← getUB status (edgeIndex o)
  if isEmerged st then return { s with emerged := s.emerged ++ [f] }
  else return { s with immersed := s.immersed ++ [f] }

/-- Body of the loop of `MeshIntersector::classify_or_split`, MeshIntersector.cpp:76-88. -/
def facetStep (status split : List Nat) (crossing : List Bool) (orientedEdges : List (List Nat))
    (s : FacetSt K) (f : Nat) : Except Err (FacetSt K) := do
  let c ← getUB crossing f
  if c then splitFacet status split orientedEdges s f
  else classifyFacet status orientedEdges s f

/-- What `update_intersection_with_free_surface` leaves in the members of `MeshIntersector`. -/
structure Result (K : Type) where
  mesh : Mesh K
  rel : List K
  wave : List K
  emerged : List Nat
  immersed : List Nat
  surface : List Nat
deriving DecidableEq, Repr

/-- `MeshIntersector::update_intersection_with_free_surface`, MeshIntersector.cpp:116-138 (there are no NaN
in `K`; `all_absolute_immersions`, lines 132-136, is not modelled). -/
def update (m : Mesh K) (rel wave : List K) : Except Err (Result K) := do
  let m := m.reset
  let s0 : EdgeSt K :=
    { edges := m.edges, allNodes := m.allNodes, total := m.total, rel := rel, wave := wave,
      status := List.replicate m.nbEdges 0, split := List.replicate m.nbEdges 0,
      crossing := List.replicate m.nbFacets false }
  let s ← (List.range m.nbEdges).foldlM (edgeStep m.facetsPerEdge) s0
  let f0 : FacetSt K := { edges := s.edges, facets := m.facets, emerged := [], immersed := [], surface := [] }
  let f ← (List.range m.nbFacets).foldlM (facetStep s.status s.split s.crossing m.orientedEdges) f0
  return { mesh := { m with edges := f.edges, facets := f.facets, allNodes := s.allNodes, total := s.total }
           rel := s.rel, wave := s.wave, emerged := f.emerged, immersed := f.immersed, surface := f.surface }

/-! ### MeshBuilder -/

/-- Members of `MeshBuilder`, MeshBuilder.hpp:70-79 (`capacity`: number of columns of `nodes`, allocated in the
constructor; `nodes`: the columns written so far; `xyzMap`, `edgeMap`: `std::map`s used with `insert`
of absent keys, `find` and `operator[]` of present keys). -/
structure Builder (K : Type) where
  capacity : Nat
  xyzMap : List (Pt K × Nat) := []
  edgeMap : List ((Nat × Nat) × Nat) := []
  nodes : List (Pt K) := []
  edges : List (Nat × Nat) := []
  facets : List (Facet K) := []
  facetsPerEdge : List (List Nat) := []
  orientedEdges : List (List Nat) := []
deriving DecidableEq, Repr

/-- `find` in the map of points: `Vector3dComparator`, MeshBuilder.hpp:9-21, is the lexicographic order, two
points are equivalent when they are equal. -/
def lookPt (m : List (Pt K × Nat)) (p : Pt K) : Option Nat :=
  match m with
  | [] => none
  | (q, i) :: m => if q = p then some i else lookPt m p

/-- Equivalence for `EdgeComparator`, MeshBuilder.hpp:41-56: same least and same greatest vertex. -/
def sameEdge (e f : Nat × Nat) : Bool := min e.1 e.2 = min f.1 f.2 && max e.1 e.2 = max f.1 f.2

/-- `find` in the map of edges. -/
def lookEdge (m : List ((Nat × Nat) × Nat)) (e : Nat × Nat) : Option Nat :=
  match m with
  | [] => none
  | (f, i) :: m => if sameEdge f e then some i else lookEdge m e

/-- `MeshBuilder::build_one_point`, MeshBuilder.cpp:96-101, with `add_point_if_missing`, 115-125 (`index` is the
number of points of the map): writing out of the columns of `nodes` is undefined behaviour. -/
def Builder.onePoint (b : Builder K) (p : Pt K) : Except Err (Builder K × Nat) :=
  match lookPt b.xyzMap p with
  | some i => .ok (b, i)
  | none =>
    if b.nodes.length < b.capacity then
      .ok ({ b with xyzMap := b.xyzMap ++ [(p, b.nodes.length)], nodes := b.nodes ++ [p] }, b.nodes.length)
    else .error .ub

/-- `MeshBuilder::build_one_edge`, MeshBuilder.cpp:85-94, with `add_edge_if_missing`, 103-113 (`edgeIndex` is
the number of edges). -/
def Builder.oneEdge (b : Builder K) (e : Nat × Nat) : Builder K × Nat :=
  match lookEdge b.edgeMap e with
  | some i => (b, i)
  | none =>
    ({ b with edgeMap := b.edgeMap ++ [(e, b.edges.length)], edges := b.edges ++ [e],
              facetsPerEdge := b.facetsPerEdge ++ [[]] }, b.edges.length)

/-- The loop of `MeshBuilder::operator()`, MeshBuilder.cpp:68-79: `first` is the first point of the facet,
`f` the index of the facet. -/
def Builder.facetPoints (f : Nat) (first : Pt K) :
    Builder K → List (Pt K) → List Nat → List Nat → Except Err (Builder K × List Nat × List Nat)
  | b, [], vs, os => .ok (b, vs, os)
  | b, p :: ps, vs, os => do
    let (b, v) ← b.onePoint p
    let (b, w) ← b.onePoint (ps.headD first)
    let (b, e) := b.oneEdge (v, w)
    let st ← getAt b.edges e
    let fs ← getAt b.facetsPerEdge e
    let b := { b with facetsPerEdge := b.facetsPerEdge.set e (fs ++ [f]) }
    facetPoints f first b ps (vs ++ [v]) (os ++ [orientedId e (st.2 == v)])

/-- `MeshBuilder::operator()`, MeshBuilder.cpp:57-83; `normal` is `unit_normal`, mesh_manipulations.cpp:96-121,
which throws for fewer than three points. -/
def Builder.addFacet (normal : List (Pt K) → Except Err (Pt K)) (b : Builder K) (l : List (Pt K)) : Except Err (Builder K) :=
  match l with
  | [] => .ok b
  | p :: _ => do
    let n ← normal l
    let (b, vs, os) ← Builder.facetPoints b.facets.length p b l [] []
    return { b with facets := b.facets ++ [{ vertices := vs, normal := n }], orientedEdges := b.orientedEdges ++ [os] }

/-- End of `MeshBuilder::build`, MeshBuilder.cpp:46-54, with `resize`, 33-41, and `Mesh::Mesh`, Mesh.cpp:21-43. -/
def Builder.toMesh (b : Builder K) : Mesh K :=
  { edges := b.edges, facets := b.facets, facetsPerEdge := b.facetsPerEdge, orientedEdges := b.orientedEdges,
    nbNodes := b.nodes.length, nbEdges := b.edges.length, nbFacets := b.facets.length,
    allNodes := b.nodes ++ List.replicate b.edges.length ⟨0, 0, 0⟩, total := b.nodes.length }

/-- `MeshBuilder::MeshBuilder`, MeshBuilder.cpp:7-18 (without `clockwise`; no column when there are no facets), and
`MeshBuilder::build`, 43-55. -/
def build (normal : List (Pt K) → Except Err (Pt K)) (v : List (List (Pt K))) : Except Err (Mesh K) := do
  let b ← v.foldlM (Builder.addFacet normal) { capacity := v.length * (v.headD []).length }
  return b.toMesh

end Xdyn.Hull
