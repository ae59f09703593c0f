import Verif.Model.Waves
import Verif.Model.MeshFrame

/-
Model of the free surface seen by the bodies: core/src/SurfaceElevationInterface.cpp, SurfaceElevationFromWaves.cpp,
DefaultSurfaceElevation.cpp, and of force_models/src/FroudeKrylovForceModel.cpp, over the real numbers.
-/

namespace Xdyn.Sea

open Waves Hull

noncomputable section

/-- The implementations of `SurfaceElevationInterface` of the code (without the distant wave model, see Model/Grpc): `DefaultSurfaceElevation` and
`SurfaceElevationFromWaves` (each wave model is an `Airy`). -/
inductive Sea where
  | constant (z : ℝ)
  | waves (models : List Flat)

/-- `pdyn[i] += p.at(i)`, SurfaceElevationFromWaves.cpp:117-120. -/
def addAll (p q : List ℝ) : Except Err (List ℝ) :=
  (List.range p.length).mapM (fun i => do
    let a ← getUB p i
    let b ← getAt q i
    return a + b)

/-- `Vwaves.m(_, i) += vw.m(_, i)`, SurfaceElevationFromWaves.cpp:137-141, for each column of `vw` (both matrices have as many columns). -/
def addCols (p q : List (ℝ × ℝ × ℝ)) : Except Err (List (ℝ × ℝ × ℝ)) :=
  (List.range q.length).mapM (fun i => do
    let a ← getUB p i
    let b ← getUB q i
    return (a.1 + b.1, a.2.1 + b.2.1, a.2.2 + b.2.2))

/-- `WaveModel::get_dynamic_pressure`, WaveModel.cpp:156-171, and the loop of `Airy::dynamic_pressure`, Airy.cpp:85-119. -/
def getPressure (f : Flat) (rho g : ℝ) (x y z eta : List ℝ) (t : ℝ) : Except Err (List ℝ) :=
  if x.length ≠ y.length ∨ x.length ≠ z.length ∨ x.length ≠ eta.length then .error (.throw "InternalErrorException")
  else (List.range x.length).mapM (fun j => do
    let xj ← getUB x j
    let yj ← getUB y j
    let zj ← getUB z j
    let ej ← getUB eta j
    pressureAt f rho g xj yj zj ej t)

/-- `WaveModel::get_orbital_velocity`, WaveModel.cpp:138-153, and the loop of `Airy::orbital_velocity`, Airy.cpp:130-167. -/
def getVelocity (f : Flat) (g : ℝ) (x y z : List ℝ) (t : ℝ) (eta : List ℝ) : Except Err (List (ℝ × ℝ × ℝ)) :=
  if x.length ≠ y.length ∨ x.length ≠ z.length ∨ x.length ≠ eta.length then .error (.throw "InternalErrorException")
  else (List.range x.length).mapM (fun j => do
    let xj ← getUB x j
    let yj ← getUB y j
    let zj ← getUB z j
    let ej ← getUB eta j
    velocityAt f g xj yj zj t ej)

/-- `wave_height`: DefaultSurfaceElevation.cpp:18-21, SurfaceElevationFromWaves.cpp:39-56. -/
def Sea.height (s : Sea) (x y : List ℝ) (t : ℝ) : Except Err (List ℝ) :=
  match s with
  | .constant z => .ok (List.replicate x.length z)
  | .waves models => waveHeight models x y t

/-- `dynamic_pressure`: DefaultSurfaceElevation.cpp:35-45, SurfaceElevationFromWaves.cpp:104-123. -/
def Sea.pressure (s : Sea) (rho g : ℝ) (x y z eta : List ℝ) (t : ℝ) : Except Err (List ℝ) :=
  match s with
  | .constant _ => .ok (List.replicate x.length 0)
  | .waves models => models.foldlM (fun p f => do
      let q ← getPressure f rho g x y z eta t
      addAll p q) (List.replicate x.length 0)

/-- `orbital_velocity`: DefaultSurfaceElevation.cpp:23-33, SurfaceElevationFromWaves.cpp:125-144. -/
def Sea.velocity (s : Sea) (g : ℝ) (x y z : List ℝ) (t : ℝ) (eta : List ℝ) : Except Err (List (ℝ × ℝ × ℝ)) :=
  match s with
  | .constant _ => .ok (List.replicate x.length (0, 0, 0))
  | .waves models => models.foldlM (fun p f => do
      let q ← getVelocity f g x y z t eta
      addCols p q) (List.replicate x.length (0, 0, 0))

/-- `get_and_check_wave_height`, SurfaceElevationInterface.cpp:153-164. -/
def Sea.checkHeight (s : Sea) (x y : List ℝ) (t : ℝ) : Except Err (List ℝ) :=
  if x.length ≠ y.length then .error (.throw "InternalErrorException") else s.height x y t

/-- `get_and_check_dynamic_pressure`, SurfaceElevationInterface.cpp:166-191. -/
def Sea.checkPressure (s : Sea) (rho g : ℝ) (x y z eta : List ℝ) (t : ℝ) : Except Err (List ℝ) :=
  if x.length ≠ y.length then .error (.throw "InternalErrorException")
  else if x.length ≠ z.length then .error (.throw "InternalErrorException")
  else if x.length ≠ eta.length then .error (.throw "InternalErrorException")
  else s.pressure rho g x y z eta t

/-- `get_and_check_orbital_velocity`, SurfaceElevationInterface.cpp:193-208. -/
def Sea.checkVelocity (s : Sea) (g : ℝ) (x y z : List ℝ) (t : ℝ) (eta : List ℝ) : Except Err (List (ℝ × ℝ × ℝ)) :=
  if x.length ≠ y.length ∨ x.length ≠ z.length ∨ x.length ≠ eta.length then .error (.throw "InternalErrorException")
  else s.velocity g x y z t eta

/-- The transforms known by `ssc::kinematics::Kinematics` (not in the repository): `k->get("NED", frame)`, or an exception for an unknown frame. -/
abbrev Frames := String → Option Transform

/-- `compute_position_in_NED_frame`, SurfaceElevationInterface.cpp:18-39. -/
def toNed (k : Frames) (frame : String) (P : List (Pt ℝ)) : Except Err (List (Pt ℝ)) :=
  if frame ≠ "NED" then
    match k frame with
    | some T => .ok (P.map T.apply)
    | none => .error (.throw "KinematicsException")
  else .ok P

/-- `get_dynamic_pressure`, SurfaceElevationInterface.cpp:220-244. -/
def Sea.getDynamicPressure (s : Sea) (rho g : ℝ) (frame : String) (P : List (Pt ℝ)) (k : Frames) (eta : List ℝ) (t : ℝ) : Except Err (List ℝ) :=
  if P.length ≠ eta.length then .error (.throw "InternalErrorException")
  else do
    let OP ← toNed k frame P
    s.pressure rho g (OP.map Pt.x) (OP.map Pt.y) (OP.map Pt.z) eta t

/-- The members `relative_wave_height_for_each_point_in_mesh` and `surface_elevation_for_each_point_in_mesh`, which keep the result of the last call of
`update_surface_elevation`. -/
structure Memory where
  relative : List ℝ
  elevation : List ℝ

/-- `update_surface_elevation`, SurfaceElevationInterface.cpp:92-114 (the members after an exception are not described: the next successful call overwrites them). -/
def update (s : Sea) (m : Memory) (frame : String) (P : List (Pt ℝ)) (k : Frames) (t : ℝ) : Except Err Memory :=
  if P.length = 0 then .ok m
  else do
    let OP ← toNed k frame P
    let elevation ← s.checkHeight (OP.map Pt.x) (OP.map Pt.y) t
    let relative ← (List.range P.length).mapM (fun i => do
      let p ← getUB OP i
      let e ← getAt elevation i
      return p.z - e)
    return { relative, elevation }

/-- The three lines of `update_intersection_with_free_surface`, BodyWithSurfaceForces.cpp:26-35: what the mesh intersector of a body receives
(relative immersions and elevations), for the bodies of a simulation, in turn; the members of the free surface are shared by the bodies. -/
def updateBodies (s : Sea) (k : Frames) (t : ℝ) : Memory → List (String × List (Pt ℝ)) → Except Err (List (List ℝ × List ℝ))
  | _, [] => .ok []
  | m, (frame, P) :: l => do
    let m' ← update s m frame P k t
    let rest ← updateBodies s k t m' l
    return (m'.relative, m'.elevation) :: rest

/-- The inner loop of `evaluate_rao`, SurfaceElevationInterface.cpp:135-148, starting from `F`. -/
def raoSpectrum (f : Flat) (x y t : ℝ) (modules phases : List ℝ) (F : ℝ) : Except Err ℝ :=
  if modules.length ≠ f.comps.length then .error (.throw "InternalErrorException")
  else (List.range modules.length).foldlM (fun F i => do
    let m ← getUB modules i
    let p ← getUB phases i
    let c ← getUB f.comps i
    let th ← getUB f.phase i
    return F - m * c.a * Real.sin (angle c th x y t + p)) F

/-- `get_flat_directional_spectra`, SurfaceElevationFromWaves.cpp:58-67 and DefaultSurfaceElevation.cpp:47-50. -/
def Sea.spectra : Sea → List Flat
  | .constant _ => []
  | .waves models => models

/-- `evaluate_rao`, SurfaceElevationInterface.cpp:116-151. -/
def Sea.evaluateRao (s : Sea) (x y t : ℝ) (modules phases : List (List ℝ)) : Except Err ℝ :=
  s.spectra.zipIdx.foldlM (fun F p => do
    let m ← getAt modules p.2
    let q ← getAt phases p.2
    raoSpectrum p.1 x y t m q F) 0

/-! ### Froude-Krylov -/

/-- The loop of FroudeKrylovForceModel.cpp:32-42: average elevation of a facet. -/
def facetEta (wave : List ℝ) (f : Facet ℝ) : Except Err ℝ := do
  let s ← f.vertices.foldlM (fun e v => do
    let w ← getAt wave v
    return e + w) 0
  return if f.vertices.length ≠ 0 then s / (f.vertices.length : ℝ) else s

/-- The member `centre_of_gravity` of a facet; for a facet of area zero it is a NaN (mesh_manipulations.cpp:162: 0/0), and the force is a NaN or an exception
(Airy.cpp:87-90): the model stops. -/
def facetCentre (nodes : List (Pt ℝ)) (f : Facet ℝ) : Except Err (Pt ℝ) :=
  if polyArea (f.vertices.map (col nodes)) = 0 then .error (.throw "NaN") else .ok (centreOfGravity (f.vertices.map (col nodes)))

/-- The dynamic pressures of `FroudeKrylovForceModel::get_dF`, FroudeKrylovForceModel.cpp:29-62. -/
def fkPressures (s : Sea) (k : Frames) (frame : String) (rho g t : ℝ) (nodes : List (Pt ℝ)) (wave : List ℝ) (fs : List (Facet ℝ)) : Except Err (List ℝ) := do
  let etas ← fs.mapM (facetEta wave)
  let centres ← fs.mapM (facetCentre nodes)
  s.getDynamicPressure rho g frame centres k etas t

/-- The function returned by `get_dF`, FroudeKrylovForceModel.cpp:64-74. -/
def fkDF (pdyn : List ℝ) (nodes : List (Pt ℝ)) (f : Facet ℝ) (index : Nat) : Except Err DF := do
  let p ← getAt pdyn index
  let C ← facetCentre nodes f
  return ⟨vscale (-p) (vscale (polyArea (f.vertices.map (col nodes))) f.normal), C⟩

/-- `SurfaceForceModel::operator()`, SurfaceForceModel.cpp:22-53, for the Froude-Krylov model on the list of the immersed facets; `wave` is
`all_absolute_wave_elevations`, `nodes` are all the nodes of the mesh, in frame `frame`. -/
def froudeKrylov (s : Sea) (k : Frames) (frame : String) (rho g t orientation : ℝ) (G : Pt ℝ) (nodes : List (Pt ℝ)) (wave : List ℝ) (fs : List (Facet ℝ)) :
    Except Err Wrench := do
  let pdyn ← fkPressures s k frame rho g t nodes wave fs
  fs.zipIdx.foldlM (fun W p => do
    let d ← fkDF pdyn nodes p.1 p.2
    return addDF orientation G W d) ⟨⟨0, 0, 0⟩, ⟨0, 0, 0⟩⟩

end

end Xdyn.Sea
