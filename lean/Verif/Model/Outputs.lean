/-
Model of what is written at each instant: Observer::observe (core/src/Observer.cpp:31-37), Sim::output (core/src/Sim.cpp:199-237),
ForceModel::feed (core/src/ForceModel.cpp:52-68), ControllableForceModel::feed (core/src/ControllableForceModel.cpp:133-179),
Body::feed (core/src/Body.cpp:178-197), feed_sum_of_forces (core/src/Sim.cpp:43-57) and the extra observations of the force models.

Simplifications. The maps `forces` and `controlled_forces` are visited in the order of the bodies (the code visits them in the
order of the names of the bodies); the wave elevation (EnvironmentAndFrames::feed) is not a number and is left out. What is
written is given by the structures below: the last wrenches computed by the force models, the states, the angles, etc.
-/
import Verif.Model.Body

namespace Xdyn.Outputs
open Xdyn.Body

variable {K : Type} [Field K]

/-- What a written number is. -/
inductive Quantity where
  | date
  /-- a state of a body -/
  | state (i : Fin 16) (body : String)
  /-- component `i` of the wrench of a force on a body, in a frame -/
  | effort (i : Fin 6) (force body frame : String)
  /-- coordinate of the centre of buoyancy of a body, for a force model -/
  | buoyancy (i : Fin 3) (force body : String)
  /-- righting lever of a hydrostatic model -/
  | lever (force body : String)
  /-- another number that a force model computes for a body -/
  | extra (name force body : String)
deriving DecidableEq

/-- names of the states, Body.cpp:180-196 -/
def stateNames : Fin 16 → String :=
  ![ "x", "y", "z", "u", "v", "w", "p", "q", "r", "qr", "qi", "qj", "qk", "phi", "theta", "psi" ]

/-- names of the components of a wrench, ForceModel.cpp:54-66 -/
def componentNames : Fin 6 → String := ![ "Fx", "Fy", "Fz", "Mx", "My", "Mz" ]

/-- names of the coordinates, HydrostaticForceModel.cpp:75-77 -/
def buoyancyNames : Fin 3 → String := ![ "Bx", "By", "Bz" ]

/-- The name under which a number is written: Observer.cpp:33, Body.cpp:180-196, ForceModel.cpp:54-66,
ControllableForceModel.cpp:158-177, Sim.cpp:51-56 and 224-229, HydrostaticForceModel.cpp:75-79 (the centre of buoyancy has
neither the name of the body nor that of the force model), FastHydrostaticForceModel.cpp:74, GMForceModel.cpp:124-125 and
GRPCForceModel.cpp:288 (the name of the force model is not used) -/
def label : Quantity → String
  | .date => "t"
  | .state i b => stateNames i ++ "(" ++ b ++ ")"
  | .effort i f b r => componentNames i ++ "(" ++ f ++ "," ++ b ++ "," ++ r ++ ")"
  | .buoyancy i _ _ => buoyancyNames i
  | .lever f b => "GZ(" ++ f ++ "," ++ b ++ ")"
  | .extra n _ b => n ++ "(" ++ b ++ ")"

/-- the six components of a wrench, with their names -/
def writeWrench (f b r : String) (W : Vec6 K) : List (Quantity × K) :=
  [(.effort 0 f b r, W 0), (.effort 1 f b r, W 1), (.effort 2 f b r, W 2), (.effort 3 f b r, W 3), (.effort 4 f b r, W 4),
   (.effort 5 f b r, W 5)]

/-- The force models that write something else. -/
inductive Kind (K : Type) where
  | plain
  | exactHydrostatic (B : Fin 3 → K) (gz : K)
  | fastHydrostatic (gz : K)
  | gm (GM GZ : K)

/-- extra_observations: HydrostaticForceModel.cpp:73-80, FastHydrostaticForceModel.cpp:72-75, GMForceModel.cpp:122-126,
ForceModel.cpp:75-77 -/
def extraObservations (f b : String) : Kind K → List (Quantity × K)
  | .plain => []
  | .exactHydrostatic B gz => [(.buoyancy 0 f b, B 0), (.buoyancy 1 f b, B 1), (.buoyancy 2 f b, B 2), (.lever f b, gz)]
  | .fastHydrostatic gz => [(.lever f b, gz)]
  | .gm GM GZ => [(.extra "GM" f b, GM), (.extra "GZ" f b, GZ)]

/-- A force model: its last wrench in the body frame and in the NED frame (ForceModel::update, ForceModel.cpp:30-35). -/
structure Force (K : Type) where
  name : String
  inBody : Vec6 K
  inNed : Vec6 K
  kind : Kind K

/-- ForceModel::feed, ForceModel.cpp:52-68 -/
def Force.feed (b : String) (F : Force K) : List (Quantity × K) :=
  writeWrench F.name b b F.inBody ++ writeWrench F.name b "NED" F.inNed ++ extraObservations F.name b F.kind

/-- A controlled force model: its last wrench (force and torque at G, in the body frame), the transform from the body frame to
its own frame (rotation and point), and the extra observations of a distant model. -/
structure Controlled (K : Type) where
  name : String
  tau : Vec3 K × Vec3 K
  R : Mat3 K
  P : Vec3 K
  extra : List (String × K)

/-- Wrench at the origin of the NED frame, ControllableForceModel.cpp:143-156: `N` and `pN` are the rotation and the point of
`k->get(body_name, "NED")`, `G` the point given to `feed`. -/
def feedNed (N : Mat3 K) (pN G : Vec3 K) (tau : Vec3 K × Vec3 K) : Vec3 K × Vec3 K :=
  let OO1 := -pN
  let OG := OO1 + G
  (N.transpose.mulVec tau.1, N.transpose.mulVec (tau.2 + cross OG tau.1))

/-- the six components of a force and a torque -/
def six (w : Vec3 K × Vec3 K) : Vec6 K := ![w.1 0, w.1 1, w.1 2, w.2 0, w.2 1, w.2 2]

/-- ControllableForceModel::feed, ControllableForceModel.cpp:133-179, with GRPCForceModel::extra_observations,
GRPCForceModel.cpp:283-290 -/
def Controlled.feed (b : String) (N : Mat3 K) (pN G : Vec3 K) (C : Controlled K) : List (Quantity × K) :=
  writeWrench C.name b b (six C.tau) ++ writeWrench C.name b C.name (six (feedInternal C.R C.P G C.tau)) ++
    writeWrench C.name b "NED" (six (feedNed N pN G C.tau)) ++ C.extra.map (fun e => (.extra e.1 C.name b, e.2))

/-- What is known about a body when the outputs are written. -/
structure BodyData (K : Type) where
  name : String
  forces : List (Force K)
  controlled : List (Controlled K)
  /-- rotation and point of `k->get(body_name, "NED")` -/
  N : Mat3 K
  pN : Vec3 K
  /-- `body->get_origin(x)`, Sim.cpp:217 -/
  origin : Vec3 K
  /-- the thirteen states and the three angles, Body.cpp:178-197 -/
  states : Fin 16 → K
  deltaF : Vec6 K
  sumInBody : Vec6 K
  sumInNed : Vec6 K

/-- Body::feed, Body.cpp:178-197 -/
def BodyData.feedStates (b : BodyData K) : List (Quantity × K) :=
  (List.finRange 16).map (fun i => (.state i b.name, b.states i))

/-- Observer::observe and Sim::output: the numbers written, in order; Observer.cpp:33-34, Sim.cpp:207-236 -/
def outputs (t : K) (bodies : List (BodyData K)) : List (Quantity × K) :=
  (.date, t) ::
    (bodies.flatMap (fun b => b.forces.flatMap (Force.feed b.name)) ++
     bodies.flatMap (fun b => b.controlled.flatMap (Controlled.feed b.name b.N b.pN b.origin)) ++
     bodies.flatMap (fun b => b.feedStates ++ writeWrench "blocked states" b.name b.name b.deltaF) ++
     bodies.flatMap (fun b => writeWrench "sum of forces" b.name b.name b.sumInBody ++ writeWrench "sum of forces" b.name "NED" b.sumInNed))

/-- What the observer keeps (Observer::write, Observer.hpp:42-48): the last number written under a name. -/
def kept (l : List (Quantity × K)) (name : String) : Option K := (l.map (fun p => (label p.1, p.2))).reverse.lookup name

end Xdyn.Outputs
