import Verif.Spec.Yaml
import Verif.Model.Setup
import Verif.Model.WaveGrid

/-
Model of the reading of the YAML files:
yaml_parser/src/environment_parsers.cpp, yaml_parser/src/external_data_structures_parsers.cpp,
yaml_parser/src/parse_commands.cpp, yaml_parser/src/SimulatorYamlParser.cpp and the functions `parse` of the
force models of force_models/src and grpc/src/GRPCForceModel.cpp.

External: yaml-cpp gives the tree of the document (`Yaml`); `node[key]` throws if the key is missing or if the
node is not a map; a vector is read element by element; emitting a node and parsing it again gives the same node
(`get_yaml`, `YamlModel::yaml`).  SSC's `parse_uv` reads `value` and `unit` (`values` for a vector) and multiplies.
All the exceptions of yaml-cpp and SSC are `.throw "YAML::Exception"`; texts of messages are not modelled.
-/

namespace Xdyn.Input

variable {K : Type} [Mul K]

def yamlError {α : Type} : Except Err α := .error (.throw "YAML::Exception")
def invalidInput {α : Type} : Except Err α := .error (.throw "InvalidInputException")

/-! ### yaml-cpp and SSC -/

/-- `node[key]` -/
def get (n : Yaml) (k : String) : Except Err Yaml :=
  match n with
  | .map l => match l.lookup k with
    | some v => .ok v
    | none => yamlError
  | _ => yamlError

/-- `node.FindValue(key)` -/
def find (n : Yaml) (k : String) : Except Err (Option Yaml) :=
  match n with
  | .map l => .ok (l.lookup k)
  | .seq _ => .ok none
  | .scalar _ => yamlError

/-- `node >> s` for a `std::string` -/
def text (n : Yaml) : Except Err String :=
  match n with
  | .scalar s => .ok s
  | _ => yamlError

/-- Conversion of a scalar. -/
def scalarWith {α : Type} (f : String → Option α) (n : Yaml) : Except Err α :=
  match n with
  | .scalar s => match f s with
    | some x => .ok x
    | none => yamlError
  | _ => yamlError

/-- `node >> x` for a `double`, an `int`, a `size_t`, a `bool` -/
def number (c : Conv K) : Yaml → Except Err K := scalarWith c.num
def int (c : Conv K) : Yaml → Except Err Int := scalarWith c.int
def nat (c : Conv K) : Yaml → Except Err Nat := scalarWith c.nat
def bool (c : Conv K) : Yaml → Except Err Bool := scalarWith c.bool

/-- Reads all the elements. -/
def listOf {α : Type} (f : Yaml → Except Err α) : List Yaml → Except Err (List α)
  | [] => .ok []
  | n :: l => do
    let x ← f n
    let xs ← listOf f l
    .ok (x :: xs)

/-- `node >> v` for a `std::vector` -/
def vector {α : Type} (c : Conv K) (f : Yaml → Except Err α) (n : Yaml) : Except Err (List α) :=
  match n with
  | .seq l => listOf f l
  | n => if c.emptyList n then .ok [] else yamlError

/-- `ssc::yaml_parser::parse_uv(node, double&)` -/
def uv (c : Conv K) (n : Yaml) : Except Err K := do
  let v ← (get n "value").bind (number c)
  let u ← (get n "unit").bind (scalarWith c.unit)
  .ok (v * u)

/-- `ssc::yaml_parser::parse_uv(node, std::vector<double>&)` -/
def uvs (c : Conv K) (n : Yaml) : Except Err (List K) := do
  let v ← (get n "values").bind (vector c (number c))
  let u ← (get n "unit").bind (scalarWith c.unit)
  .ok (v.map (· * u))

/-- `node[key] >> x` -/
def field {α : Type} (f : Yaml → Except Err α) (n : Yaml) (k : String) : Except Err α := (get n k).bind f

/-- `catch (std::exception&) {THROW(..., InvalidInputException, ...)}` -/
def wrap {α : Type} : Except Err α → Except Err α
  | .error (.throw _) => invalidInput
  | r => r

/-- `try_to_parse`, external_data_structures_parsers.hpp:29-33, and PARSE_OPTIONAL_KEY, SimulatorYamlParser.cpp:19-23 -/
def optional {α : Type} (f : Yaml → Except Err α) (d : α) (n : Yaml) (k : String) : Except Err α :=
  (find n k).bind (fun o => match o with
    | some v => f v
    | none => .ok d)

/-- `try_to_parse_positive_integer`, external_data_structures_parsers.cpp:14-34 -/
def positiveInteger (c : Conv K) (n : Yaml) (k : String) : Except Err Nat :=
  (field (int c) n k).bind (fun x => if x < 0 then yamlError else .ok x.toNat)

/-! ### Waves (environment_parsers.cpp) -/

/-- `YamlDiscretization` -/
structure Discretization (K : Type) where
  n : Nat
  omegaMin : K
  omegaMax : K
  energyFraction : K

/-- `operator>>(YamlDiscretization)`, environment_parsers.cpp:86-92 -/
def parseDiscretization (c : Conv K) (n : Yaml) : Except Err (Discretization K) := do
  let k ← positiveInteger c n "n"
  let lo ← field (uv c) n "omega min"
  let hi ← field (uv c) n "omega max"
  let e ← field (number c) n "energy fraction"
  .ok { n := k, omegaMin := lo, omegaMax := hi, energyFraction := e }

/-- `YamlStretching` -/
structure Stretch (K : Type) where
  delta : K
  h : K

/-- `operator>>(YamlStretching)`, environment_parsers.cpp:94-116 -/
def parseStretching (c : Conv K) (n : Yaml) : Except Err (Stretch K) :=
  wrap (do
    let h ← wrap (field (uv c) n "h")
    let d ← field (number c) n "delta"
    .ok { delta := d, h := h })

/-- `YamlSpectra`: `model_yaml`, `directional_spreading_yaml` and `spectral_density_yaml` are the nodes. -/
structure Spectra (K : Type) where
  model : String
  node : Yaml
  spreadingType : String
  spreadingNode : Yaml
  densityType : String
  densityNode : Yaml
  depth : K
  stretching : Stretch K

/-- `operator>>(YamlSpectra)`, environment_parsers.cpp:126-139 -/
def parseSpectra (c : Conv K) (n : Yaml) : Except Err (Spectra K) := do
  let m ← field text n "model"
  let sn ← get n "directional spreading"
  let st ← field text sn "type"
  let dn ← get n "spectral density"
  let dt ← field text dn "type"
  let s ← field (parseStretching c) n "stretching"
  let d ← field (uv c) n "depth"
  .ok { model := m, node := n, spreadingType := st, spreadingNode := sn, densityType := dt, densityNode := dn,
        depth := d, stretching := s }

/-- `YamlWaveOutput` -/
structure WaveOutput (K : Type) where
  frame : String
  xmin : K
  xmax : K
  nx : Nat
  ymin : K
  ymax : K
  ny : Nat

/-- `YamlWaveOutput::YamlWaveOutput`, YamlWaveOutput.cpp:11-18 -/
def WaveOutput.default [OfNat K 0] : WaveOutput K := { frame := "", xmin := 0, xmax := 0, nx := 0, ymin := 0, ymax := 0, ny := 0 }

/-- `operator>>(YamlWaveOutput)`, environment_parsers.cpp:141-150 -/
def parseWaveOutput (c : Conv K) (n : Yaml) : Except Err (WaveOutput K) := do
  let f ← field text n "frame of reference"
  let m ← get n "mesh"
  let xmin ← field (uv c) m "xmin"
  let xmax ← field (uv c) m "xmax"
  let nx ← positiveInteger c m "nx"
  let ymin ← field (uv c) m "ymin"
  let ymax ← field (uv c) m "ymax"
  let ny ← positiveInteger c m "ny"
  .ok { frame := f, xmin := xmin, xmax := xmax, nx := nx, ymin := ymin, ymax := ymax, ny := ny }

/-- The fields of the `YamlWaveOutput` when `operator>>` throws (or at the end): each field keeps its value once read,
environment_parsers.cpp:141-150.  `r` is what is read so far. -/
def partialWaveOutput [OfNat K 0] (c : Conv K) (n : Yaml) : WaveOutput K :=
  match field text n "frame of reference" with
  | .error _ => .default
  | .ok f =>
    match get n "mesh" with
    | .error _ => { WaveOutput.default with frame := f }
    | .ok m =>
      match field (uv c) m "xmin" with
      | .error _ => { WaveOutput.default with frame := f }
      | .ok xmin =>
        match field (uv c) m "xmax" with
        | .error _ => { WaveOutput.default with frame := f, xmin := xmin }
        | .ok xmax =>
          match positiveInteger c m "nx" with
          | .error _ => { WaveOutput.default with frame := f, xmin := xmin, xmax := xmax }
          | .ok nx =>
            match field (uv c) m "ymin" with
            | .error _ => { WaveOutput.default with frame := f, xmin := xmin, xmax := xmax, nx := nx }
            | .ok ymin =>
              match field (uv c) m "ymax" with
              | .error _ => { WaveOutput.default with frame := f, xmin := xmin, xmax := xmax, nx := nx, ymin := ymin }
              | .ok ymax =>
                match positiveInteger c m "ny" with
                | .error _ => { frame := f, xmin := xmin, xmax := xmax, nx := nx, ymin := ymin, ymax := ymax, ny := 0 }
                | .ok ny => { frame := f, xmin := xmin, xmax := xmax, nx := nx, ymin := ymin, ymax := ymax, ny := ny }

/-- `YamlWaveModel` -/
structure WaveModel (K : Type) where
  discretization : Discretization K
  spectra : List (Spectra K)
  output : WaveOutput K

/-- `parse_waves`, environment_parsers.cpp:42-84 -/
def parseWaves [OfNat K 0] (c : Conv K) (n : Yaml) : Except Err (WaveModel K) := do
  let d ← wrap (field (parseDiscretization c) n "discretization")
  let s ← wrap (field (vector c (parseSpectra c)) n "spectra")
  let o ← optional (fun v => wrap (parseWaveOutput c v)) .default n "output"
  .ok { discretization := d, spectra := s, output := o }

/-- The section `output` of models 'no waves' and 'grpc': what is read before an exception is kept, the exception
is dropped, environment_parsers.cpp:32-38 and 397-403 -/
def swallowedOutput [OfNat K 0] (c : Conv K) (n : Yaml) : WaveOutput K :=
  match get n "output" with
  | .error _ => .default
  | .ok v => partialWaveOutput c v

/-- `parse_default_wave_model`, environment_parsers.cpp:24-40 -/
def parseDefaultWaveModel [OfNat K 0] (c : Conv K) (n : Yaml) : Except Err (K × WaveOutput K) := do
  let z ← field (uv c) n "constant sea elevation in NED frame"
  .ok (z, swallowedOutput c n)

/-- `parse_grpc`, environment_parsers.cpp:394-417: URL, output, and the rest of the YAML -/
def parseGrpcWaves [OfNat K 0] (c : Conv K) (n : Yaml) : Except Err (String × WaveOutput K × Yaml) := do
  let u ← field text n "url"
  .ok (u, swallowedOutput c n, n)

/-- `parse_wave_dirac_direction`, environment_parsers.cpp:153-171 -/
def parseDiracDirection (c : Conv K) (n : Yaml) : Except Err K := wrap (field (uv c) n "waves propagating to")

/-- `YamlDiracSpectrum` -/
structure DiracSpectrum (K : Type) where
  omega0 : K
  Hs : K

/-- `parse_wave_dirac_spectrum`, environment_parsers.cpp:173-192 -/
def parseDiracSpectrum (c : Conv K) (n : Yaml) : Except Err (DiracSpectrum K) :=
  wrap (do
    let h ← field (uv c) n "Hs"
    let o ← field (uv c) n "omega0"
    .ok { omega0 := o, Hs := h })

/-- `YamlJonswap` -/
structure Jonswap (K : Type) where
  Hs : K
  Tp : K
  gamma : K

/-- `parse_jonswap`, environment_parsers.cpp:194-214 -/
def parseJonswap (c : Conv K) (n : Yaml) : Except Err (Jonswap K) :=
  wrap (do
    let h ← field (uv c) n "Hs"
    let t ← field (uv c) n "Tp"
    let g ← field (number c) n "gamma"
    .ok { Hs := h, Tp := t, gamma := g })

/-- `YamlPiersonMoskowitz`, `YamlBretschneider` -/
structure HsTp (K : Type) where
  Hs : K
  Tp : K

/-- `parse_pierson_moskowitz`, environment_parsers.cpp:216-235, and `parse_bretschneider`, 237-256 -/
def parseHsTp (c : Conv K) (n : Yaml) : Except Err (HsTp K) :=
  wrap (do
    let h ← field (uv c) n "Hs"
    let t ← field (uv c) n "Tp"
    .ok { Hs := h, Tp := t })

/-- `YamlCos2s` -/
structure Cos2s (K : Type) where
  psi0 : K
  s : K

/-- `parse_cos2s`, environment_parsers.cpp:258-277 -/
def parseCos2s (c : Conv K) (n : Yaml) : Except Err (Cos2s K) :=
  wrap (do
    let p ← field (uv c) n "waves propagating to"
    let s ← field (number c) n "s"
    .ok { psi0 := p, s := s })

/-- `parse_seed_of_random_number_generator`, environment_parsers.cpp:279-316: `none` for 'none'.  The second
`throw(e)` of the inner `try` is caught by `catch(...)`, which throws `e` again. -/
def parseSeed (c : Conv K) (n : Yaml) : Except Err (Option Nat) :=
  match positiveInteger c n "seed of the random data generator" with
  | .ok s => .ok (some s)
  | .error (.throw _) =>
    match optional text "" n "seed of the random data generator" with
    | .ok s => if s = "none" then .ok none else invalidInput
    | .error _ => invalidInput
  | .error .ub => .error .ub

/-! ### Bodies (external_data_structures_parsers.cpp) -/

structure Angles (K : Type) where
  phi : K
  theta : K
  psi : K

/-- `operator>>(YamlAngle)`, external_data_structures_parsers.cpp:138-143 -/
def parseAngles (c : Conv K) (n : Yaml) : Except Err (Angles K) := do
  let a ← field (uv c) n "phi"
  let b ← field (uv c) n "theta"
  let d ← field (uv c) n "psi"
  .ok { phi := a, theta := b, psi := d }

structure Coords (K : Type) where
  x : K
  y : K
  z : K

/-- `operator>>(YamlCoordinates)`, external_data_structures_parsers.cpp:145-150 -/
def parseCoords (c : Conv K) (n : Yaml) : Except Err (Coords K) := do
  let a ← field (uv c) n "x"
  let b ← field (uv c) n "y"
  let d ← field (uv c) n "z"
  .ok { x := a, y := b, z := d }

structure Position (K : Type) where
  angle : Angles K
  coordinates : Coords K
  frame : String

/-- `operator>>(YamlPosition)`, external_data_structures_parsers.cpp:131-136 -/
def parsePosition (c : Conv K) (n : Yaml) : Except Err (Position K) := do
  let a ← parseAngles c n
  let p ← parseCoords c n
  let f ← field text n "frame"
  .ok { angle := a, coordinates := p, frame := f }

structure Speed (K : Type) where
  frame : String
  u : K
  v : K
  w : K
  p : K
  q : K
  r : K

/-- `operator>>(YamlSpeed)`, external_data_structures_parsers.cpp:152-161 -/
def parseSpeed (c : Conv K) (n : Yaml) : Except Err (Speed K) := do
  let f ← field text n "frame"
  let u ← field (uv c) n "u"
  let v ← field (uv c) n "v"
  let w ← field (uv c) n "w"
  let p ← field (uv c) n "p"
  let q ← field (uv c) n "q"
  let r ← field (uv c) n "r"
  .ok { frame := f, u := u, v := v, w := w, p := p, q := q, r := r }

structure NamedPoint (K : Type) where
  name : String
  frame : String
  coordinates : Coords K

/-- `parse_point_with_name`, external_data_structures_parsers.cpp:36-43 -/
def parsePointWithName (c : Conv K) (name : String) (n : Yaml) : Except Err (NamedPoint K) := do
  let p ← parseCoords c n
  let f ← field text n "frame"
  .ok { name := name, frame := f, coordinates := p }

/-- `operator>>(YamlPoint)`, external_data_structures_parsers.cpp:213-218 -/
def parsePoint (c : Conv K) (n : Yaml) : Except Err (NamedPoint K) := do
  let name ← field text n "name"
  parsePointWithName c name n

/-- `YamlDynamics6x6Matrix` -/
structure Matrix6 (K : Type) where
  readFromFile : Bool
  hdb : String
  frame : String
  rows : Fin 6 → List K

/-- Is one of the rows given? (external_data_structures_parsers.cpp:224-229) -/
def anyRow (n : Yaml) : Except Err Bool := do
  let r1 ← find n "row 1"
  let r2 ← find n "row 2"
  let r3 ← find n "row 3"
  let r4 ← find n "row 4"
  let r5 ← find n "row 5"
  let r6 ← find n "row 6"
  .ok (r1.isSome || r2.isSome || r3.isSome || r4.isSome || r5.isSome || r6.isSome)

/-- external_data_structures_parsers.cpp:246-251 -/
def parseRows (c : Conv K) (n : Yaml) : Except Err (Fin 6 → List K) := do
  let r1 ← field (vector c (number c)) n "row 1"
  let r2 ← field (vector c (number c)) n "row 2"
  let r3 ← field (vector c (number c)) n "row 3"
  let r4 ← field (vector c (number c)) n "row 4"
  let r5 ← field (vector c (number c)) n "row 5"
  let r6 ← field (vector c (number c)) n "row 6"
  .ok ![r1, r2, r3, r4, r5, r6]

/-- `parse_YamlDynamics6x6Matrix`, external_data_structures_parsers.cpp:220-253, with `parse_frame == false` (all the calls) -/
def parseMatrix6 (c : Conv K) (frame : String) (n : Yaml) : Except Err (Matrix6 K) :=
  (find n "from hdb").bind (fun o => match o with
    | some v => (anyRow n).bind (fun b =>
        if b then invalidInput
        else (text v).bind (fun f => .ok { readFromFile := true, hdb := f, frame := "", rows := fun _ => [] }))
    | none => (parseRows c n).bind (fun r => .ok { readFromFile := false, hdb := "", frame := frame, rows := r }))

structure Dynamics (K : Type) where
  centreOfInertia : NamedPoint K
  rigidBodyInertia : Matrix6 K
  addedMass : Matrix6 K
  hydrodynamicPoint : Coords K

/-- Two keys are accepted, external_data_structures_parsers.cpp:166-187 and 188-209 -/
def eitherKey {α : Type} (f : Yaml → Except Err α) (n : Yaml) (k k' : String) : Except Err α :=
  (find n k).bind (fun o => match o with
    | some v => f v
    | none => field f n k')

/-- `operator>>(YamlDynamics)`, external_data_structures_parsers.cpp:163-211 -/
def parseDynamics (c : Conv K) (n : Yaml) : Except Err (Dynamics K) := do
  let g ← field (parsePointWithName c "centre of inertia") n "centre of inertia"
  let m ← eitherKey (parseMatrix6 c g.frame) n
    "rigid body inertia matrix at the center of buoyancy projected in the body frame"
    "rigid body inertia matrix at the center of gravity and projected in the body frame"
  let a ← eitherKey (parseMatrix6 c g.frame) n
    "added mass matrix at the center of buoyancy projected in the body frame"
    "added mass matrix at the center of gravity and projected in the body frame"
  let p ← field (parseCoords c) n "hydrodynamic forces calculation point in body frame"
  .ok { centreOfInertia := g, rigidBodyInertia := m, addedMass := a, hydrodynamicPoint := p }

/-- `YamlModel` without the line number: `yaml` is the node -/
structure ModelNode where
  model : String
  yaml : Yaml

/-- `operator>>(YamlModel)`, external_data_structures_parsers.cpp:121-129 -/
def parseModel (n : Yaml) : Except Err ModelNode := do
  let m ← field text n "model"
  .ok { model := m, yaml := n }

inductive Blockable where
  | u | v | w | p | q | r
deriving DecidableEq

/-- `operator>>(BlockableState)`, external_data_structures_parsers.cpp:263-277 -/
def parseBlockable (n : Yaml) : Except Err Blockable :=
  (text n).bind (fun t =>
    if t = "u" then .ok .u
    else if t = "v" then .ok .v
    else if t = "w" then .ok .w
    else if t = "p" then .ok .p
    else if t = "q" then .ok .q
    else if t = "r" then .ok .r
    else invalidInput)

inductive Interp where
  | piecewiseConstant | linear | spline
deriving DecidableEq

/-- `operator>>(InterpolationType)`, external_data_structures_parsers.cpp:280-291 -/
def parseInterp (n : Yaml) : Except Err Interp :=
  (text n).bind (fun t =>
    if t = "piecewise constant" then .ok .piecewiseConstant
    else if t = "linear" then .ok .linear
    else if t = "spline" then .ok .spline
    else invalidInput)

/-- `YamlCSVDOF`: `t` and `value` are names of columns -/
structure CsvDof where
  filename : String
  interpolation : Interp
  state : Blockable
  t : String
  value : String

/-- `operator>>(YamlCSVDOF)`, external_data_structures_parsers.cpp:294-301 -/
def parseCsvDof (n : Yaml) : Except Err CsvDof := do
  let f ← field text n "filename"
  let i ← field parseInterp n "interpolation"
  let s ← field parseBlockable n "state"
  let t ← field text n "t"
  let v ← field text n "value"
  .ok { filename := f, interpolation := i, state := s, t := t, value := v }

structure YamlDof (K : Type) where
  interpolation : Interp
  state : Blockable
  t : List K
  value : List K

/-- `operator>>(YamlDOF<std::vector<double> >)`, external_data_structures_parsers.cpp:304-310 -/
def parseYamlDof (c : Conv K) (n : Yaml) : Except Err (YamlDof K) := do
  let i ← field parseInterp n "interpolation"
  let s ← field parseBlockable n "state"
  let t ← field (vector c (number c)) n "t"
  let v ← field (vector c (number c)) n "value"
  .ok { interpolation := i, state := s, t := t, value := v }

structure BlockedDof (K : Type) where
  fromCsv : List CsvDof
  fromYaml : List (YamlDof K)

/-- `operator>>(YamlBlockedDOF)`, external_data_structures_parsers.cpp:312-316 -/
def parseBlockedDof (c : Conv K) (n : Yaml) : Except Err (BlockedDof K) := do
  let a ← optional (vector c parseCsvDof) [] n "from CSV"
  let b ← optional (vector c (parseYamlDof c)) [] n "from YAML"
  .ok { fromCsv := a, fromYaml := b }

structure BodyNode (K : Type) where
  name : String
  mesh : String
  externalForces : List ModelNode
  controlledForces : List ModelNode
  bodyFrame : Position K
  initialPosition : Position K
  initialVelocity : Speed K
  dynamics : Dynamics K
  blocked : BlockedDof K

/-- `operator>>(YamlBody)`, external_data_structures_parsers.cpp:101-119 -/
def parseBody (c : Conv K) (n : Yaml) : Except Err (BodyNode K) := do
  let name ← field text n "name"
  let mesh ← optional text "" n "mesh"
  let ext ← optional (vector c parseModel) [] n "external forces"
  let ctl ← optional (vector c parseModel) [] n "controlled forces"
  let bf ← field (parsePosition c) n "position of body frame relative to mesh"
  let ip ← field (parsePosition c) n "initial position of body frame relative to NED"
  let iv ← field (parseSpeed c) n "initial velocity of body frame relative to NED"
  let dyn ← field (parseDynamics c) n "dynamics"
  let bl ← optional (parseBlockedDof c) { fromCsv := [], fromYaml := [] } n "blocked dof"
  .ok { name := name, mesh := mesh, externalForces := ext, controlledForces := ctl, bodyFrame := bf,
        initialPosition := ip, initialVelocity := iv, dynamics := dyn, blocked := bl }

structure Constants (K : Type) where
  g : K
  rho : K
  nu : K

/-- `operator>>(YamlEnvironmentalConstants)`, external_data_structures_parsers.cpp:255-260 -/
def parseConstants (c : Conv K) (n : Yaml) : Except Err (Constants K) := do
  let g ← field (uv c) n "g"
  let r ← field (uv c) n "rho"
  let v ← field (uv c) n "nu"
  .ok { g := g, rho := r, nu := v }

/-- `YamlCommands`; `commands` in the order of the file (a `std::map` in the code) -/
structure CommandsNode (K : Type) where
  name : String
  t : List K
  commands : List (String × List K)

/-- The loop of `operator>>(YamlCommands)`, parse_commands.cpp:17-34: every key but `name` and `t`. -/
def parseCommandKeys (c : Conv K) : List (String × Yaml) → Except Err (List (String × List K))
  | [] => .ok []
  | (k, v) :: l =>
    if k ≠ "name" ∧ k ≠ "t" then (do
      let x ← wrap (uvs c v)
      let xs ← parseCommandKeys c l
      .ok ((k, x) :: xs))
    else parseCommandKeys c l

/-- The entries of a map. -/
def entries : Yaml → List (String × Yaml)
  | .map l => l
  | _ => []

/-- `operator>>(YamlCommands)`, parse_commands.cpp:13-35 -/
def parseCommandsNode (c : Conv K) (n : Yaml) : Except Err (CommandsNode K) := do
  let name ← field text n "name"
  let t ← field (vector c (number c)) n "t"
  let cs ← parseCommandKeys c (entries n)
  .ok { name := name, t := t, commands := cs }

structure SimInput (K : Type) where
  constants : Constants K
  bodies : List (BodyNode K)
  rotations : Xdyn.Setup.Rotation
  environment : List ModelNode
  commands : List (CommandsNode K)

/-- Number of children of the document. -/
def isEmptyDoc : Yaml → Bool
  | .scalar _ => true
  | .seq l => l.isEmpty
  | .map l => l.isEmpty

/-- `operator>>(YamlRotation)`, external_data_structures_parsers.cpp:55-99, from the node -/
def parseRotation (c : Conv K) (n : Yaml) : Except Err Xdyn.Setup.Rotation :=
  (vector c text n).bind (fun l => Xdyn.Setup.readRotation (l.map String.toList))

/-- `SimulatorYamlParser::parse`, SimulatorYamlParser.cpp:25-40 -/
def parseSim [OfNat K 0] (c : Conv K) (n : Yaml) : Except Err (SimInput K) :=
  if isEmptyDoc n then invalidInput
  else do
    let k ← optional (parseConstants c) { g := 0, rho := 0, nu := 0 } n "environmental constants"
    let b ← optional (vector c (parseBody c)) [] n "bodies"
    let r ← field (parseRotation c) n "rotations convention"
    let e ← optional (vector c parseModel) [] n "environment models"
    let m ← optional (vector c (parseCommandsNode c)) [] n "commands"
    .ok { constants := k, bodies := b, rotations := r, environment := e, commands := m }

/-! ### Force models -/

structure ConstantForce (K : Type) where
  frame : String
  point : Coords K
  X : K
  Y : K
  Z : K
  K' : K
  M : K
  N : K

/-- `ConstantForceModel::parse`, ConstantForceModel.cpp:34-52 -/
def parseConstantForce (c : Conv K) (n : Yaml) : Except Err (ConstantForce K) := do
  let f ← field text n "frame"
  let x ← field (uv c) n "x"
  let y ← field (uv c) n "y"
  let z ← field (uv c) n "z"
  let fx ← field (uv c) n "X"
  let fy ← field (uv c) n "Y"
  let fz ← field (uv c) n "Z"
  let mx ← field (uv c) n "K"
  let my ← field (uv c) n "M"
  let mz ← field (uv c) n "N"
  .ok { frame := f, point := { x := x, y := y, z := z }, X := fx, Y := fy, Z := fz, K' := mx, M := my, N := mz }

structure Resistance (K : Type) where
  Va : List K
  R : List K

/-- `ResistanceCurveForceModel::parse`, ResistanceCurveForceModel.cpp:46-56 -/
def parseResistance (c : Conv K) (n : Yaml) : Except Err (Resistance K) := do
  let v ← field (uvs c) n "speed"
  let r ← field (uvs c) n "resistance"
  .ok { Va := v, R := r }

structure StationKeeping (K : Type) where
  name : String
  ksiX : K
  TX : K
  ksiY : K
  TY : K
  ksiPsi : K
  TPsi : K

/-- `SimpleStationKeepingController::parse`, SimpleStationKeepingController.cpp:33-48 -/
def parseStationKeeping (c : Conv K) (n : Yaml) : Except Err (StationKeeping K) := do
  let name ← field text n "name"
  let kx ← field (number c) n "ksi_x"
  let tx ← field (uv c) n "T_x"
  let ky ← field (number c) n "ksi_y"
  let ty ← field (uv c) n "T_y"
  let kp ← field (number c) n "ksi_psi"
  let tp ← field (uv c) n "T_psi"
  .ok { name := name, ksiX := kx, TX := tx, ksiY := ky, TY := ty, ksiPsi := kp, TPsi := tp }

structure HeadingKeeping (K : Type) where
  name : String
  ksi : K
  Tp : K

/-- `SimpleHeadingKeepingController::parse`, SimpleHeadingKeepingController.cpp:25-36 -/
def parseHeadingKeeping (c : Conv K) (n : Yaml) : Except Err (HeadingKeeping K) := do
  let name ← field text n "name"
  let k ← field (number c) n "ksi"
  let t ← field (uv c) n "Tp"
  .ok { name := name, ksi := k, Tp := t }

/-- `M.row_1[j]` for `j` from 0 to 5, LinearDampingForceModel.cpp:43-48 -/
def sixFirst (row : List K) : Except Err (Fin 6 → K) := do
  let a0 ← getUB row 0
  let a1 ← getUB row 1
  let a2 ← getUB row 2
  let a3 ← getUB row 3
  let a4 ← getUB row 4
  let a5 ← getUB row 5
  .ok ![a0, a1, a2, a3, a4, a5]

/-- `LinearDampingForceModel::parse`, LinearDampingForceModel.cpp:27-50, and `QuadraticDampingForceModel::parse`,
QuadraticDampingForceModel.cpp:27-50 (same text) -/
def parseDamping (c : Conv K) (n : Yaml) : Except Err (Fin 6 → Fin 6 → K) := do
  let m ← field (parseMatrix6 c "") n "damping matrix at the center of gravity projected in the body frame"
  let r0 ← sixFirst (m.rows 0)
  let r1 ← sixFirst (m.rows 1)
  let r2 ← sixFirst (m.rows 2)
  let r3 ← sixFirst (m.rows 3)
  let r4 ← sixFirst (m.rows 4)
  let r5 ← sixFirst (m.rows 5)
  .ok ![r0, r1, r2, r3, r4, r5]

structure Propeller (K : Type) where
  clockwise : Bool
  thrustDeduction : K
  wake : K
  name : String
  position : Position K
  etaR : K
  diameter : K

/-- `AbstractWageningen::parse`, AbstractWageningen.cpp:31-48 -/
def parsePropeller (c : Conv K) (n : Yaml) : Except Err (Propeller K) := do
  let rot ← field text n "rotation"
  let t ← field (number c) n "thrust deduction factor t"
  let w ← field (number c) n "wake coefficient w"
  let name ← field text n "name"
  let p ← field (parsePosition c) n "position of propeller frame"
  let e ← field (number c) n "relative rotative efficiency etaR"
  let d ← field (uv c) n "diameter"
  .ok { clockwise := rot == "clockwise", thrustDeduction := t, wake := w, name := name, position := p, etaR := e,
        diameter := d }

structure Wageningen (K : Type) where
  propeller : Propeller K
  blades : Nat
  areaRatio : K

/-- `WageningenControlledForceModel::parse`, WageningenControlledForceModel.cpp:123-133 -/
def parseWageningen (c : Conv K) (n : Yaml) : Except Err (Wageningen K) := do
  let p ← parsePropeller c n
  let a ← field (number c) n "blade area ratio AE/A0"
  let z ← positiveInteger c n "number of blades"
  .ok { propeller := p, blades := z, areaRatio := a }

structure KtKq (K : Type) where
  propeller : Propeller K
  J : List K
  Kt : List K
  Kq : List K

/-- `KtKqForceModel::parse`, KtKqForceModel.cpp:48-60 -/
def parseKtKq (c : Conv K) (n : Yaml) : Except Err (KtKq K) := do
  let p ← parsePropeller c n
  let j ← field (vector c (number c)) n "J"
  let kt ← field (vector c (number c)) n "Kt"
  let kq ← field (vector c (number c)) n "Kq"
  .ok { propeller := p, J := j, Kt := kt, Kq := kq }

structure RudderNode (K : Type) where
  wageningen : Wageningen K
  area : K
  height : K
  aspect : K
  lift : K
  drag : K
  position : Coords K

/-- `RudderForceModel::parse`, RudderForceModel.cpp:267-283 -/
def parseRudder (c : Conv K) (n : Yaml) : Except Err (RudderNode K) := do
  let w ← parseWageningen c n
  let a ← field (uv c) n "rudder area"
  let b ← field (uv c) n "rudder height"
  let e ← field (number c) n "effective aspect ratio factor"
  let l ← field (number c) n "lift tuning coefficient"
  let d ← field (number c) n "drag tuning coefficient"
  let p ← field (parseCoords c) n "position of rudder in body frame"
  .ok { wageningen := w, area := a, height := b, aspect := e, lift := l, drag := d, position := p }

inductive Quadrature where
  | gaussKronrod | rectangle | simpson | trapezoidal | burcher | clenshawCurtis | filon
deriving DecidableEq

/-- `parse_type_of_quadrature_`, RadiationDampingForceModel.cpp:212-227 -/
def parseQuadrature (n : Yaml) : Except Err Quadrature :=
  (text n).bind (fun s =>
    if s = "gauss-kronrod" then .ok .gaussKronrod
    else if s = "rectangle" then .ok .rectangle
    else if s = "simpson" then .ok .simpson
    else if s = "trapezoidal" then .ok .trapezoidal
    else if s = "burcher" then .ok .burcher
    else if s = "clenshaw-curtis" then .ok .clenshawCurtis
    else if s = "filon" then .ok .filon
    else invalidInput)

structure Radiation (K : Type) where
  hdb : String
  cosTransform : Quadrature
  convolution : Quadrature
  points : Nat
  omegaMin : K
  omegaMax : K
  tauMin : K
  tauMax : K
  output : Bool
  point : Coords K

/-- `RadiationDampingForceModel::parse`, RadiationDampingForceModel.cpp:229-258, without the reading of the HDB file -/
def parseRadiation (c : Conv K) (n : Yaml) : Except Err (Radiation K) := do
  let h ← field text n "hdb"
  let a ← field parseQuadrature n "type of quadrature for cos transform"
  let b ← field parseQuadrature n "type of quadrature for convolution"
  let m ← field (nat c) n "nb of points for retardation function discretization"
  let w1 ← field (uv c) n "omega min"
  let w2 ← field (uv c) n "omega max"
  let t1 ← field (uv c) n "tau min"
  let t2 ← field (uv c) n "tau max"
  let o ← field (bool c) n "output Br and K"
  let p ← field (parseCoords c) n "calculation point in body frame"
  .ok { hdb := h, cosTransform := a, convolution := b, points := m, omegaMin := w1, omegaMax := w2, tauMin := t1,
        tauMax := t2, output := o, point := p }

structure DiffractionNode (K : Type) where
  hdb : String
  point : Coords K
  mirror : Bool

/-- `DiffractionForceModel::parse`, DiffractionForceModel.cpp:227-238 -/
def parseDiffraction (c : Conv K) (n : Yaml) : Except Err (DiffractionNode K) := do
  let h ← field text n "hdb"
  let p ← field (parseCoords c) n "calculation point in body frame"
  let m ← field (bool c) n "mirror for 180 to 360"
  .ok { hdb := h, point := p, mirror := m }

inductive Hydrostatic where
  | hydrostatic | exact | fast
deriving DecidableEq

structure GMNode (K : Type) where
  model : Hydrostatic
  rollStep : K

/-- `GMForceModel::parse`, GMForceModel.cpp:58-85 -/
def parseGM (c : Conv K) (n : Yaml) : Except Err (GMNode K) := do
  let s ← field text n "name of hydrostatic force model"
  let r ← field (uv c) n "roll step"
  if s = "hydrostatic" then .ok { model := .hydrostatic, rollStep := r }
  else if s = "non-linear hydrostatic (exact)" then .ok { model := .exact, rollStep := r }
  else if s = "non-linear hydrostatic (fast)" then .ok { model := .fast, rollStep := r }
  else invalidInput

structure LinearHydrostaticNode (K : Type) where
  zEq : K
  phiEq : K
  thetaEq : K
  K1 : List K
  K2 : List K
  K3 : List K
  x : Fin 4 → K
  y : Fin 4 → K

/-- `LinearHydrostaticForceModel::parse`, LinearHydrostaticForceModel.cpp:36-58 -/
def parseLinearHydrostatic (c : Conv K) (n : Yaml) : Except Err (LinearHydrostaticNode K) := do
  let z ← field (uv c) n "z eq"
  let p ← field (uv c) n "phi eq"
  let t ← field (uv c) n "theta eq"
  let k1 ← field (vector c (number c)) n "K row 1"
  let k2 ← field (vector c (number c)) n "K row 2"
  let k3 ← field (vector c (number c)) n "K row 3"
  let x1 ← field (uv c) n "x1"
  let x2 ← field (uv c) n "x2"
  let x3 ← field (uv c) n "x3"
  let x4 ← field (uv c) n "x4"
  let y1 ← field (uv c) n "y1"
  let y2 ← field (uv c) n "y2"
  let y3 ← field (uv c) n "y3"
  let y4 ← field (uv c) n "y4"
  .ok { zEq := z, phiEq := p, thetaEq := t, K1 := k1, K2 := k2, K3 := k3, x := ![x1, x2, x3, x4], y := ![y1, y2, y3, y4] }

structure ManeuveringNode (K : Type) where
  name : String
  position : Position K
  commands : List String
  expressions : List (String × String)

/-- The loop of `ManeuveringForceModel::parse`, ManeuveringForceModel.cpp:45-66: commands and expressions; every key but
`commands` and `reference frame` (`name` and `model` included) is an expression. -/
def parseExpressions (c : Conv K) : List (String × Yaml) → Except Err (List String × List (String × String))
  | [] => .ok ([], [])
  | (k, v) :: l => do
    let r ← parseExpressions c l
    if k = "commands" then (vector c text v).bind (fun cs => .ok (cs, r.2))
    else if k ≠ "reference frame" then (wrap (text v)).bind (fun s => .ok (r.1, (k, s) :: r.2))
    else .ok r

/-- `ManeuveringForceModel::parse`, ManeuveringForceModel.cpp:28-68.  The order of the exceptions is not modelled. -/
def parseManeuvering (c : Conv K) (n : Yaml) : Except Err (ManeuveringNode K) := do
  let p ← wrap (field (parsePosition c) n "reference frame")
  let name ← field text n "name"
  let r ← parseExpressions c (entries n)
  .ok { name := name, position := p, commands := r.1, expressions := r.2 }

structure GrpcForce where
  url : String
  name : String
  yaml : Yaml

/-- `GRPCForceModel::parse`, GRPCForceModel.cpp:249-262 -/
def parseGrpcForce (n : Yaml) : Except Err GrpcForce := do
  let u ← field text n "url"
  let name ← field text n "name"
  .ok { url := u, name := name, yaml := n }

end Xdyn.Input
