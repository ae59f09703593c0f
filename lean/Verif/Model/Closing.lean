import Verif.Model.Hydrostatic
import Mathlib.Analysis.SpecialFunctions.Complex.Arg

/-
Model of code/mesh/src/ClosingFacetComputer.cpp, over the real numbers, and of the parts of
code/mesh/src/MeshIntersector.cpp that use it (`build_closing_edge`, 140-167; `flip`, 11-17; `has`, 351-381;
`immersed_volume`, 511-525).

`std::set`s and `std::map`s indexed by integers are lists in increasing order.  The nodes are the columns of
`mesh->all_nodes`: reading out of the columns is excluded by the hypotheses of the theorems (`col`).
-/

namespace Xdyn.Closing

open Hull

/-- An edge: indexes of its two nodes (ClosingFacetComputer.hpp:36). -/
abbrev Edge := Nat × Nat

/-- `InternalErrorException`, caught by `contour`. -/
def internalError : Err := .throw "InternalErrorException"

/-- One of the ends of the edge `i` satisfies `p`. -/
def touches (E : List Edge) (p : Nat → Bool) (i : Nat) : Bool :=
  match E[i]? with
  | some e => p e.1 || p e.2
  | none => false

/-- Entry `n` of `get_node_to_connected_edges`, ClosingFacetComputer.cpp:584-597: the indexes of the
edges connected to a node, in increasing order; empty when the node is not a key of the map. -/
def nodeEdges (E : List Edge) (n : Nat) : List Nat := (List.range E.length).filter (touches E (fun m => m == n))

/-- `extract_nodes`, ClosingFacetComputer.cpp:183-201: the nodes in order of first use. -/
def extractNodes (E : List Edge) : List Nat :=
  E.foldl (fun ret e =>
    let ret := if e.1 ∈ ret then ret else ret ++ [e.1]
    if e.2 ∈ ret then ret else ret ++ [e.2]) []

/-! ### Groups of connected edges -/

/-- `get_connected_components` and `get_edges_per_component`, ClosingFacetComputer.cpp:112-153: `comp` and `count` are what
Boost's `connected_components` returns, per node of the mesh (a node which belongs to no edge is given the component 0 by
line 133; it has no edges).  The groups are sets: lists in increasing order. -/
def edgesPerComponent (comp : Nat → Nat) (count : Nat) (E : List Edge) : List (List Nat) :=
  (List.range count).map (fun c => (List.range E.length).filter (touches E (fun m => comp m == c)))

/-- Boost's `connected_components`, as a function of the edges: number of the component of each
node, and number of components. -/
abbrev Components := List Edge → (Nat → Nat) × Nat

/-- `group_connected_edges`, ClosingFacetComputer.cpp:171-181, with `convert_to_original_indexes`, 155-169. -/
def groupConnectedEdges (boost : Components) (E : List Edge) (relevant : List Nat) : Except Err (List (List Nat)) := do
  let relevant := if relevant = [] then List.range E.length else relevant
  let R ← relevant.mapM (getAt E)
  let c := boost R
  (edgesPerComponent c.1 c.2 R).mapM (fun l => l.mapM (getUB relevant))

/-! ### Angles -/

/-- `std::atan2`. -/
noncomputable def atan2 (y x : ℝ) : ℝ := Complex.arg ⟨x, y⟩

/-- `fmod`. -/
noncomputable def fmod (x y : ℝ) : ℝ := x - y * (if 0 ≤ x / y then (⌊x / y⌋ : ℝ) else (⌈x / y⌉ : ℝ))

/-- `constrain_0_2pi`, ClosingFacetComputer.cpp:300-308. -/
noncomputable def constrain (x : ℝ) : ℝ :=
  let x := fmod x (2 * Real.pi)
  let x := if x < 0 then x + 2 * Real.pi else x
  if |x - 2 * Real.pi| < 1 / 10 ^ 14 then 0 else x

/-! ### The contour -/

/-- Members of `ClosingFacetComputer` (`ymin` is never used). -/
structure Computer where
  nodes : List (Pt ℝ)
  edges : List Edge
  original : List Nat
  xmin : ℝ
  xmax : ℝ
  ymax : ℝ

/-- Constructor, ClosingFacetComputer.cpp:70-99: `ymax` is not initialised with the first node (line 84 assigns
`ymin` again), it starts from zero. -/
noncomputable def Computer.mk' (nodes : List (Pt ℝ)) (E : List Edge) (relevant : List Nat) : Except Err Computer := do
  let relevant := if relevant = [] then List.range E.length else relevant
  let e0 ← getAt E 0
  let R ← relevant.mapM (getAt E)
  let x0 := (col nodes e0.1).x
  return { nodes := nodes, edges := R, original := relevant,
           xmin := R.foldl (fun m e => min (min m (col nodes e.1).x) (col nodes e.2).x) x0,
           xmax := R.foldl (fun m e => max (max m (col nodes e.1).x) (col nodes e.2).x) x0,
           ymax := R.foldl (fun m e => max (max m (col nodes e.1).y) (col nodes e.2).y) 0 }

/-- `TwoEdges::common_nodes`, ClosingFacetComputer.cpp:263-271. -/
def commonNodes (ab cd : Edge) : List Nat :=
  (if ab.1 = cd.1 then [ab.1] else []) ++ (if ab.1 = cd.2 then [ab.1] else []) ++
  (if ab.2 = cd.1 then [ab.2] else []) ++ (if ab.2 = cd.2 then [ab.2] else [])

/-- `TwoEdges::get_common_node`, ClosingFacetComputer.cpp:273-292. -/
def commonNode (ab cd : Edge) (reverse : Bool) : Except Err Nat :=
  match commonNodes ab cd with
  | [n] => if (if reverse then ab.1 else ab.2) ≠ n then .error internalError else .ok n
  | _ => .error internalError

/-- `angle_between_edges`, ClosingFacetComputer.cpp:310-320, with the constructor of `TwoEdges`, 233-247. -/
noncomputable def angleBetween (C : Computer) (ab cd : Edge) (reverse : Bool) : Except Err ℝ := do
  let n ← commonNode ab cd reverse
  let c := if cd.1 = n then cd.2 else cd.1
  let BA := vsub (col C.nodes ab.1) (col C.nodes ab.2)
  let BC := vsub (col C.nodes c) (col C.nodes ab.2)
  let angle := atan2 BC.y BC.x - atan2 BA.y BA.x
  let sign : ℝ := if (vcross (vscale (-1) BA) BC).z < 0 then -1 else 1
  return sign * constrain angle

/-- `keep_lowest_angle`, ClosingFacetComputer.cpp:356-369. -/
noncomputable def keepLowest (C : Computer) (x0 y0 : ℝ) (reverse : Bool) : Bool :=
  let left : Bool := decide (C.xmin < x0)
  let right : Bool := decide (C.xmax > x0)
  let top : Bool := decide (C.ymax > y0)
  let s := if !left && right && top then !reverse else true
  if left && !right then !reverse else s

/-- `all_negative`, ClosingFacetComputer.cpp:389-397. -/
noncomputable def allNegative (angles : List ℝ) : Bool :=
  angles.all (fun a => if 1 / 10 ^ 10 < |(|a| - Real.pi)| then decide (a < 0) else true)

/-- The loop of `next_edge`, ClosingFacetComputer.cpp:398-424, on the angles that follow the first one: `i` is the index
of the next one, the result is `idx`. -/
noncomputable def bestAngle (lowest allNeg : Bool) : Nat → List ℝ → Nat → ℝ → Nat
  | _, [], idx, _ => idx
  | i, new :: l, idx, angle =>
    let angle := if |angle - Real.pi| < 1 / 10 ^ 10 ∧ allNeg = true then -Real.pi else angle
    if (if lowest then decide (new < angle) else decide (new > angle)) then bestAngle lowest allNeg (i + 1) l i new
    else bestAngle lowest allNeg (i + 1) l idx angle

/-- `next_edge`, ClosingFacetComputer.cpp:371-426, with `edges_connected_to_second_node_of_edge`, 322-337, and
`edges_connected_to_first_node_of_edge`, 339-354. -/
noncomputable def nextEdge (C : Computer) (e : Nat) (reverse : Bool) : Except Err Nat := do
  let ab ← match C.edges[e]? with
    | some ab => pure ab
    | none => .error internalError
  let n := if reverse then ab.1 else ab.2
  let connected := (nodeEdges C.edges n).filter (fun i => i != e)
  if connected = [] then .error internalError
  let p := col C.nodes n
  let lowest := keepLowest C p.x p.y reverse
  let angles ← connected.mapM (fun i => match C.edges[i]? with
    | some cd => angleBetween C ab cd reverse
    | none => .error internalError)
  match angles with
  | [] => .error .ub
  | a :: l => getAt connected (bestAngle lowest (allNegative (a :: l)) 1 l 0 a)

/-- `need_to_reverse`, ClosingFacetComputer.cpp:478-481. -/
def needToReverse (first second : Edge) (reverse : Bool) : Bool :=
  if reverse then first.1 != second.1 else first.2 != second.1

/-- `Contour`, ClosingFacetComputer.hpp:32-36: the vectors `edge_idx` and `reversed`, always of the same
length. -/
abbrev Contour := List (Nat × Bool)

/-- The loop of `contour(edge)`, ClosingFacetComputer.cpp:528-543: `front` is the first edge, `prev` and `reverse` the last edge and
its direction, `edge` the next one, `size` the length of `ret` and `fuel` what is left before `edges.size()`. -/
noncomputable def contourLoop (C : Computer) (front : Nat) : Nat → Contour → Nat → Bool → Nat → Except Err Contour
  | 0, ret, _, _, _ => .ok ret
  | fuel + 1, ret, prev, reverse, edge =>
    if edge = front then .ok ret
    else do
      let a ← getAt C.edges prev
      let b ← getAt C.edges edge
      let reverse := needToReverse a b reverse
      let next ← nextEdge C edge reverse
      contourLoop C front fuel (ret ++ [(edge, reverse)]) edge reverse next

/-- An oriented edge as a vector of the plane. -/
noncomputable def vectorOf (C : Computer) (e : Nat × Bool) : Except Err (Pt ℝ) := do
  let ab ← getAt C.edges e.1
  return if e.2 then vsub (col C.nodes ab.1) (col C.nodes ab.2) else vsub (col C.nodes ab.2) (col C.nodes ab.1)

/-- The loop of `direct_orientation`, ClosingFacetComputer.cpp:488-503: the sign of the first vector which is not colinear
with the first one (of the last one if all are colinear). -/
noncomputable def directLoop (C : Computer) (AB : Pt ℝ) : ℝ → Contour → Except Err Bool
  | z, [] => .ok (decide (z < 0))
  | _, e :: l => do
    let CD ← vectorOf C e
    let z := (vcross AB CD).z
    if |z| < 1 / 10 ^ 10 then directLoop C AB z l else .ok (decide (z < 0))

/-- `direct_orientation`, ClosingFacetComputer.cpp:483-504 (lines 485-487: the first edge is not reversed; `at(1)` throws for a
contour of one edge). -/
noncomputable def directOrientation (C : Computer) (c : Contour) : Except Err Bool :=
  match c with
  | e :: f :: l => do
    let AB ← vectorOf C (e.1, false)
    directLoop C AB 0 (f :: l)
  | _ => .error (.throw "std::out_of_range")

/-- `flip`, ClosingFacetComputer.cpp:507-512. -/
def flipContour (c : Contour) : Contour := (c.map (fun e => (e.1, !e.2))).reverse

/-- `contour(edge)`, ClosingFacetComputer.cpp:514-549: the internal errors are caught (lines 520-527 and 531-542). -/
noncomputable def contourFrom (C : Computer) (edge : Nat) : Except Err Contour :=
  let walk : Except Err Contour := do
    let next ← nextEdge C edge false
    contourLoop C edge (C.edges.length - 1) [(edge, false)] edge false next
  match walk with
  | .error e => if e = internalError then .ok [] else .error e
  | .ok ret => do
    if ← directOrientation C ret then return ret else return flipContour ret

/-- `find_extreme_nodes`, ClosingFacetComputer.cpp:203-225: the initial values are both read in the first column of
the mesh, and `ymax` is initialised with an abscissa. -/
noncomputable def findExtremeNodes (C : Computer) : Except Err (Nat × Nat) :=
  let ns := extractNodes C.edges
  let x00 := (col C.nodes 0).x
  let step (s : (Nat × ℝ) × (Nat × ℝ)) (i : Nat) : (Nat × ℝ) × (Nat × ℝ) :=
    let p := col C.nodes (ns.getD i 0)
    (if p.x < s.1.2 then (i, p.x) else s.1, if p.y > s.2.2 then (i, p.y) else s.2)
  let r := (List.range' 1 (ns.length - 1)).foldl step ((0, x00), (0, x00))
  do
    let a ← getAt ns r.1.1
    let b ← getAt ns r.2.1
    return (a, b)

/-- `compute_angle`, ClosingFacetComputer.cpp:439-445. -/
noncomputable def extremeAngle (C : Computer) (node candidate : Nat) : Except Err ℝ := do
  let e ← getAt C.edges candidate
  let b := if e.1 = node then e.2 else e.1
  let AB := vsub (col C.nodes b) (col C.nodes node)
  return constrain (atan2 AB.y AB.x)

/-- The loop of `extreme_edge`, ClosingFacetComputer.cpp:446-469. -/
noncomputable def extremeLoop (C : Computer) (node : Nat) (lowest : Bool) : List Nat → Nat → ℝ → Except Err Nat
  | [], ret, _ => .ok ret
  | c :: l, ret, angle => do
    let new ← extremeAngle C node c
    if (if lowest then decide (new < angle) else decide (new > angle)) then extremeLoop C node lowest l c new
    else extremeLoop C node lowest l ret angle

/-- `extreme_edge`, ClosingFacetComputer.cpp:428-470: the search starts from the edge 0, connected to the node or
not. -/
noncomputable def extremeEdge (C : Computer) (node : Nat) : Except Err Nat := do
  let candidates := nodeEdges C.edges node
  if candidates = [] then .error internalError
  let A := col C.nodes node
  let angle ← extremeAngle C node 0
  extremeLoop C node (keepLowest C A.x A.y true) candidates 0 angle

/-- `contour()`, ClosingFacetComputer.cpp:551-564 (`have_same_elements`) and 566-582. -/
noncomputable def contour (C : Computer) : Except Err Contour :=
  if C.edges.length = 1 then .ok []
  else do
    let (a, b) ← findExtremeNodes C
    let ea ← extremeEdge C a
    let eb ← extremeEdge C b
    let c1 ← contourFrom C ea
    let c2 ← contourFrom C eb
    if (c1.map Prod.fst).all (fun i => (c2.map Prod.fst).contains i) && (c2.map Prod.fst).all (fun i => (c1.map Prod.fst).contains i) then
      c1.mapM (fun e => do return (← getUB C.original e.1, e.2))
    else .error internalError

/-- One iteration of the loop of `build_closing_edge`, MeshIntersector.cpp:149-165: the facet made of a group of connected edges,
or nothing if no contour is found.  The normal is not computed. -/
noncomputable def closingFacet (nodes : List (Pt ℝ)) (E : List Edge) (l : List Nat) : Except Err (Option (Facet ℝ)) := do
  let C ← Computer.mk' nodes E l
  let c ← contour C
  if c = [] then return none
  else return some ⟨← facetVertices E (c.map (fun e => orientedId e.1 e.2)), ⟨0, 0, -1⟩⟩

/-- `MeshIntersector::build_closing_edge`, MeshIntersector.cpp:140-167: the facets added on the surface; `E` are all the
edges of the mesh and `surface` is `index_of_edges_exactly_on_surface` (a `std::set`). -/
noncomputable def closingFacets (boost : Components) (nodes : List (Pt ℝ)) (E : List Edge) (surface : List Nat) : Except Err (List (Facet ℝ)) :=
  if surface = [] then .ok []
  else do
    let ll ← groupConnectedEdges boost E surface
    let fs ← ll.mapM (closingFacet nodes E)
    return fs.filterMap id

/-! ### Volumes -/

/-- `flip`, MeshIntersector.cpp:11-17. -/
def flipFacet (f : Facet ℝ) : Facet ℝ := ⟨f.vertices.reverse, vscale (-1) f.normal⟩

/-- `MeshIntersector::has`, MeshIntersector.cpp:351-382: each vertex of the facet is a vertex of a facet of the range which has the
same normal. -/
noncomputable def hasFacet (f : Facet ℝ) (range : List (Facet ℝ)) : Bool :=
  if f.vertices = [] then false
  else f.vertices.all (fun v => range.any (fun g => if norm3 (vsub f.normal g.normal) > 1 / 10 ^ 8 then false else g.vertices.contains v))

/-- `MeshIntersector::immersed_volume`, MeshIntersector.cpp:511-525: `imm` are the immersed facets and `surf` the
closing facets. -/
noncomputable def immersedVolume (nodes : List (Pt ℝ)) (imm surf : List (Facet ℝ)) : ℝ :=
  let V := volume nodes imm
  if V = 0 then 0
  else |surf.foldl (fun V f => if hasFacet f imm then V else V + facetVolume nodes f) V|

/-- `facet_volume(flip(f))`: the flipped facet keeps the member `area`. -/
noncomputable def flippedVolume (nodes : List (Pt ℝ)) (f : Facet ℝ) : ℝ :=
  match f.vertices.reverse with
  | [] => 0
  | v :: _ => polyArea (f.vertices.map (col nodes)) * dot (vscale (-1) f.normal) (col nodes v) / 3

/-- `MeshIntersector::emerged_volume`, MeshIntersector.cpp:527-542. -/
noncomputable def emergedVolume (nodes : List (Pt ℝ)) (em surf : List (Facet ℝ)) : ℝ :=
  let V := volume nodes em
  if V = 0 then 0
  else |surf.foldl (fun V f => if hasFacet (flipFacet f) em then V else V + flippedVolume nodes f) V|

end Xdyn.Closing
