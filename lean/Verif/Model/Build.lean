/-
Model of the construction of a simulation: SimulatorBuilder::build (core/src/SimulatorBuilder.cpp:31-49, 104-160, 231-289) with
the constructor of Sim (core/src/Sim.cpp:23-41).

The construction of a force model may talk to the outside world (a distant force model is given its parameters by its constructor,
grpc/src/GRPCForceModel.cpp:142-155; a controlled force model adds its frame to the shared frames,
core/src/ControllableForceModel.cpp:20-30): it is an arbitrary function of a world `W`, which it may change, and may throw.

Simplifications. The environment (get_environment, see Model/Cli and Model/SeaBuild) is fixed; the body built by BodyBuilder::build
(BodyBuilder.cpp:67-95) is an arbitrary function of its arguments; the maps are read only by key here and are functions; the world
after an exception is not modelled (the simulation does not exist then).
-/
import Verif.Model.Config

namespace Xdyn.Build
open Xdyn.Config

/-- YamlBody: what build uses. `data` is the rest (dynamics, positions, velocities, blocked states). -/
structure YBody (Y D : Type) where
  name : Text
  /-- file of the mesh, empty if there is none -/
  mesh : Text
  external : List (Model Y)
  controlled : List (Model Y)
  data : D

/-- A force model that has been constructed: the body it was built for (ForceModel.cpp:12-20, ControllableForceModel.cpp:23), the
length of history it needs, whether it is a surface force model, and everything else. -/
structure Made (K P : Type) where
  body : Text
  tmax : K
  surface : Bool
  rest : P

/-- A parser of force models: the name of the model and its constructor (ForceModel.hpp:60-103, ControllableForceModel.hpp). -/
structure Maker (Y K P W : Type) where
  name : Text
  make : Text → Y → W → Except Err ((K × Bool × P) × W)

section
variable {Y D K P C W M B X : Type} [Field K] [LinearOrder K]

/-- One parser on one model of a body, ForceModel.hpp:65-85: `none` when the model has another name. -/
def Maker.tryToParse (p : Maker Y K P W) (body : Text) (m : Model Y) (w : W) : Except Err (Option (Made K P) × W) :=
  if m.model = p.name then
    match p.make body m.yaml w with
    | .error e => .error e
    | .ok ((tmax, surface, rest), w) => .ok (some ⟨body, tmax, surface, rest⟩, w)
  else .ok (none, w)

/-- The loop of SimulatorBuilder::add, SimulatorBuilder.cpp:189-197 and 212-220: `L` and `parsed` -/
def tryAll (body : Text) (m : Model Y) : List (Maker Y K P W) → List (Made K P) × Bool → W → Except Err ((List (Made K P) × Bool) × W)
  | [], st, w => .ok (st, w)
  | p :: l, st, w =>
    match p.tryToParse body m w with
    | .error e => .error e
    | .ok (some f, w) => tryAll body m l (st.1 ++ [f], true) w
    | .ok (none, w) => tryAll body m l st w

/-- SimulatorBuilder::add, SimulatorBuilder.cpp:186-229 (the message for a model in the wrong section is not modelled here, see
Model/Config) -/
def add (makers : List (Maker Y K P W)) (body : Text) (L : List (Made K P)) (m : Model Y) (w : W) : Except Err (List (Made K P) × W) :=
  match tryAll body m makers (L, false) w with
  | .error e => .error e
  | .ok ((L, true), w) => .ok (L, w)
  | .ok ((_, false), _) => .error invalidInput

/-- forces_from and controlled_forces_from, SimulatorBuilder.cpp:142-160 -/
def forcesFrom (makers : List (Maker Y K P W)) (body : Text) : List (Model Y) → List (Made K P) → W → Except Err (List (Made K P) × W)
  | [], L, w => .ok (L, w)
  | m :: l, L, w =>
    match add makers body L m w with
    | .error e => .error e
    | .ok (L, w) => forcesFrom makers body l L w

/-- get_forces and get_controlled_forces, SimulatorBuilder.cpp:104-112 and 132-140; `models` is the section of a body -/
def getForces (makers : List (Maker Y K P W)) (models : YBody Y D → List (Model Y)) :
    List (YBody Y D) → W → Except Err (List (List (Made K P)) × W)
  | [], w => .ok ([], w)
  | b :: l, w =>
    match forcesFrom makers b.name (models b) [] w with
    | .error e => .error e
    | .ok (f, w) =>
      match getForces makers models l w with
      | .error e => .error e
      | .ok (fs, w) => .ok (f :: fs, w)

/-- what get_max_history_length reads of a force -/
def Made.length (f : Made K P) : Force K := ⟨f.body, f.tmax⟩

/-- the same for all the bodies -/
def lengths (l : List (List (Made K P))) : List (List (Force K)) := l.map (fun fs => fs.map Made.length)

/-- SimulatorBuilder::are_there_surface_forces_acting_on_body, SimulatorBuilder.cpp:231-244 -/
def surfaceFlags (forces : List (List (Made K P))) : List Bool := forces.map (fun l => l.foldl (fun b f => b || f.surface) false)

/-- `std::map<std::string, T>`, read by key -/
abbrev NameMap (T : Type) := Text → Option T

/-- `m[k] = v` -/
def NameMap.set {T : Type} (m : NameMap T) (k : Text) (v : T) : NameMap T := fun x => if x = k then some v else m x

/-- SimulatorBuilder::get_mesh, SimulatorBuilder.cpp:282-290 -/
def getMesh (readStl : Text → Except Err M) (noMesh : M) (b : YBody Y D) : Except Err M :=
  if b.mesh = [] then .ok noMesh else readStl b.mesh

/-- SimulatorBuilder::make_mesh_map, SimulatorBuilder.cpp:272-280 -/
def makeMeshMap (readStl : Text → Except Err M) (noMesh : M) : List (YBody Y D) → NameMap M → Except Err (NameMap M)
  | [], m => .ok m
  | b :: l, m =>
    match getMesh readStl noMesh b with
    | .error e => .error e
    | .ok x => makeMeshMap readStl noMesh l (m.set b.name x)

/-- SimulatorBuilder::get_bodies, SimulatorBuilder.cpp:31-49, from index `i`; `mk` is BodyBuilder::build: body, mesh, index, length
of the history, presence of surface forces. -/
def getBodies (mk : YBody Y D → M → Nat → K → Bool → Except Err B) (meshes : NameMap M) (flags : List Bool) (len : LengthMap K) :
    Nat → List (YBody Y D) → Except Err (List (Text × B))
  | _, [] => .ok []
  | i, b :: l =>
    match meshes b.name with
    | none => .error (.throw "InternalErrorException: no mesh")
    | some m =>
      match getAt flags i with
      | .error e => .error e
      | .ok flag =>
        match mk b m i (len b.name) flag with
        | .error e => .error e
        | .ok x =>
          match getBodies mk meshes flags len (i + 1) l with
          | .error e => .error e
          | .ok xs => .ok ((b.name, x) :: xs)

/-- The simulation: bodies with their names, maps of force models (Sim.cpp:59-64), initial state. -/
structure Sim (K P C B X : Type) where
  bodies : List (Text × B)
  forces : NameMap (List (Made K P))
  controlled : NameMap (List (Made K C))
  state : X

/-- The loop of the constructor of Sim::Impl, Sim.cpp:34-40, from index `i` -/
def simMap {F : Type} (forces : List F) : Nat → List (Text × B) → NameMap F → Except Err (NameMap F)
  | _, [], m => .ok m
  | i, b :: l, m =>
    match getAt forces i with
    | .error e => .error e
    | .ok f => simMap forces (i + 1) l (m.set b.1 f)

/-- What a SimulatorBuilder uses: parsers, meshes, construction of a body, initial states. -/
structure Builder (Y D K P C W M B X : Type) where
  makers : List (Maker Y K P W)
  controlledMakers : List (Maker Y K C W)
  readStl : Text → Except Err M
  noMesh : M
  body : YBody Y D → M → Nat → K → Bool → Except Err B
  /-- ::get_initial_states, update_kinematics.cpp:19-44 (see Model/Setup) -/
  init : List (YBody Y D) → Except Err X

/-- SimulatorBuilder::build, SimulatorBuilder.cpp:246-265. The controlled force models are constructed a second time, once the
bodies exist (line 254). -/
def build (S : Builder Y D K P C W M B X) (bodies : List (YBody Y D)) (w : W) : Except Err (Sim K P C B X × W) :=
  match makeMeshMap S.readStl S.noMesh bodies (fun _ => none) with
  | .error e => .error e
  | .ok meshes =>
    match getForces S.makers YBody.external bodies w with
    | .error e => .error e
    | .ok (forces, w) =>
      match getForces S.controlledMakers YBody.controlled bodies w with
      | .error e => .error e
      | .ok (first, w) =>
        match getBodies S.body meshes (surfaceFlags forces)
            (getMaxHistoryLength (lengths forces) (lengths first)) 0 bodies with
        | .error e => .error e
        | .ok built =>
          match S.init bodies with
          | .error e => .error e
          | .ok x =>
            match getForces S.controlledMakers YBody.controlled bodies w with
            | .error e => .error e
            | .ok (controlled, w) =>
              match simMap forces 0 built (fun _ => none), simMap controlled 0 built (fun _ => none) with
              | .ok f, .ok c => .ok (⟨built, f, c, x⟩, w)
              | .error e, _ => .error e
              | _, .error e => .error e

end

end Xdyn.Build
