import Verif.Spec.Yaml
import Verif.Model.Input

/-
The format of the input files, as a user reads it in the documentation: which keys each section has, and what
each number of the simulation is.  Only the data structures of the model are used, not its functions.
-/

namespace Xdyn.Input

variable {K : Type} [Mul K]

/-! ### Waves -/

def IsDiscretization (c : Conv K) (r : Discretization K) (n : Yaml) : Prop :=
  Key n "n" (IsInt c (r.n : Int)) ∧ Key n "omega min" (IsQuantity c r.omegaMin) ∧
  Key n "omega max" (IsQuantity c r.omegaMax) ∧ Key n "energy fraction" (IsNumber c r.energyFraction)

def IsStretching (c : Conv K) (r : Stretch K) (n : Yaml) : Prop :=
  Key n "h" (IsQuantity c r.h) ∧ Key n "delta" (IsNumber c r.delta)

def IsSpectra (c : Conv K) (r : Spectra K) (n : Yaml) : Prop :=
  Key n "model" (IsText r.model) ∧ r.node = n ∧
  HasKey n "directional spreading" r.spreadingNode ∧ Key r.spreadingNode "type" (IsText r.spreadingType) ∧
  HasKey n "spectral density" r.densityNode ∧ Key r.densityNode "type" (IsText r.densityType) ∧
  Key n "stretching" (IsStretching c r.stretching) ∧ Key n "depth" (IsQuantity c r.depth)

def IsMesh (c : Conv K) (r : WaveOutput K) (m : Yaml) : Prop :=
  Key m "xmin" (IsQuantity c r.xmin) ∧ Key m "xmax" (IsQuantity c r.xmax) ∧ Key m "nx" (IsInt c (r.nx : Int)) ∧
  Key m "ymin" (IsQuantity c r.ymin) ∧ Key m "ymax" (IsQuantity c r.ymax) ∧ Key m "ny" (IsInt c (r.ny : Int))

def IsWaveOutput (c : Conv K) (r : WaveOutput K) (n : Yaml) : Prop :=
  Key n "frame of reference" (IsText r.frame) ∧ Key n "mesh" (IsMesh c r)

/-- No output: no point, in both directions. -/
def IsNoOutput [OfNat K 0] (r : WaveOutput K) : Prop :=
  r = { frame := "", xmin := 0, xmax := 0, nx := 0, ymin := 0, ymax := 0, ny := 0 }

def IsWaves [OfNat K 0] (c : Conv K) (r : WaveModel K) (n : Yaml) : Prop :=
  Key n "discretization" (IsDiscretization c r.discretization) ∧
  Key n "spectra" (IsList c (IsSpectra c) r.spectra) ∧
  OptKey n "output" (IsWaveOutput c r.output) (IsNoOutput r.output)

def IsDiracSpectrum (c : Conv K) (r : DiracSpectrum K) (n : Yaml) : Prop :=
  Key n "Hs" (IsQuantity c r.Hs) ∧ Key n "omega0" (IsQuantity c r.omega0)

def IsJonswap (c : Conv K) (r : Jonswap K) (n : Yaml) : Prop :=
  Key n "Hs" (IsQuantity c r.Hs) ∧ Key n "Tp" (IsQuantity c r.Tp) ∧ Key n "gamma" (IsNumber c r.gamma)

def IsHsTp (c : Conv K) (r : HsTp K) (n : Yaml) : Prop :=
  Key n "Hs" (IsQuantity c r.Hs) ∧ Key n "Tp" (IsQuantity c r.Tp)

def IsCos2s (c : Conv K) (r : Cos2s K) (n : Yaml) : Prop :=
  Key n "waves propagating to" (IsQuantity c r.psi0) ∧ Key n "s" (IsNumber c r.s)

/-! ### Bodies -/

def IsAngles (c : Conv K) (r : Angles K) (n : Yaml) : Prop :=
  Key n "phi" (IsQuantity c r.phi) ∧ Key n "theta" (IsQuantity c r.theta) ∧ Key n "psi" (IsQuantity c r.psi)

def IsCoords (c : Conv K) (r : Coords K) (n : Yaml) : Prop :=
  Key n "x" (IsQuantity c r.x) ∧ Key n "y" (IsQuantity c r.y) ∧ Key n "z" (IsQuantity c r.z)

def IsPosition (c : Conv K) (r : Position K) (n : Yaml) : Prop :=
  IsAngles c r.angle n ∧ IsCoords c r.coordinates n ∧ Key n "frame" (IsText r.frame)

def IsSpeed (c : Conv K) (r : Speed K) (n : Yaml) : Prop :=
  Key n "frame" (IsText r.frame) ∧
  Key n "u" (IsQuantity c r.u) ∧ Key n "v" (IsQuantity c r.v) ∧ Key n "w" (IsQuantity c r.w) ∧
  Key n "p" (IsQuantity c r.p) ∧ Key n "q" (IsQuantity c r.q) ∧ Key n "r" (IsQuantity c r.r)

/-- A point whose name is not in the file. -/
def IsPointCalled (c : Conv K) (name : String) (r : NamedPoint K) (n : Yaml) : Prop :=
  r.name = name ∧ IsCoords c r.coordinates n ∧ Key n "frame" (IsText r.frame)

def IsPoint (c : Conv K) (r : NamedPoint K) (n : Yaml) : Prop :=
  Key n "name" (IsText r.name) ∧ IsCoords c r.coordinates n ∧ Key n "frame" (IsText r.frame)

/-- The six rows of a matrix; their lengths are not checked. -/
def IsRows (c : Conv K) (r : Fin 6 → List K) (n : Yaml) : Prop :=
  Key n "row 1" (IsList c (IsNumber c) (r 0)) ∧ Key n "row 2" (IsList c (IsNumber c) (r 1)) ∧
  Key n "row 3" (IsList c (IsNumber c) (r 2)) ∧ Key n "row 4" (IsList c (IsNumber c) (r 3)) ∧
  Key n "row 5" (IsList c (IsNumber c) (r 4)) ∧ Key n "row 6" (IsList c (IsNumber c) (r 5))

/-- Either the rows, or a file that contains the matrix, never both. -/
def IsMatrix6 (c : Conv K) (frame : String) (r : Matrix6 K) (n : Yaml) : Prop :=
  (Key n "from hdb" (IsText r.hdb) ∧ Lacks n "row 1" ∧ Lacks n "row 2" ∧ Lacks n "row 3" ∧ Lacks n "row 4" ∧
    Lacks n "row 5" ∧ Lacks n "row 6" ∧ r.readFromFile = true ∧ r.frame = "" ∧ ∀ i, r.rows i = []) ∨
  (Lacks n "from hdb" ∧ r.readFromFile = false ∧ r.hdb = "" ∧ r.frame = frame ∧ IsRows c r.rows n)

/-- Key `k`, or, only if there is no key `k`, key `k'`. -/
def EitherKey (n : Yaml) (k k' : String) (P : Yaml → Prop) : Prop := Key n k P ∨ (Lacks n k ∧ Key n k' P)

def IsDynamics (c : Conv K) (r : Dynamics K) (n : Yaml) : Prop :=
  Key n "centre of inertia" (IsPointCalled c "centre of inertia" r.centreOfInertia) ∧
  EitherKey n "rigid body inertia matrix at the center of buoyancy projected in the body frame"
    "rigid body inertia matrix at the center of gravity and projected in the body frame"
    (IsMatrix6 c r.centreOfInertia.frame r.rigidBodyInertia) ∧
  EitherKey n "added mass matrix at the center of buoyancy projected in the body frame"
    "added mass matrix at the center of gravity and projected in the body frame"
    (IsMatrix6 c r.centreOfInertia.frame r.addedMass) ∧
  Key n "hydrodynamic forces calculation point in body frame" (IsCoords c r.hydrodynamicPoint)

/-- A force model or an environment model: its name, and all its parameters. -/
def IsModel (r : ModelNode) (n : Yaml) : Prop := Key n "model" (IsText r.model) ∧ r.yaml = n

def Blockable.word : Blockable → String
  | .u => "u" | .v => "v" | .w => "w" | .p => "p" | .q => "q" | .r => "r"

def Interp.word : Interp → String
  | .piecewiseConstant => "piecewise constant" | .linear => "linear" | .spline => "spline"

def IsCsvDof (r : CsvDof) (n : Yaml) : Prop :=
  Key n "filename" (IsText r.filename) ∧ Key n "interpolation" (IsText r.interpolation.word) ∧
  Key n "state" (IsText r.state.word) ∧ Key n "t" (IsText r.t) ∧ Key n "value" (IsText r.value)

def IsYamlDof (c : Conv K) (r : YamlDof K) (n : Yaml) : Prop :=
  Key n "interpolation" (IsText r.interpolation.word) ∧ Key n "state" (IsText r.state.word) ∧
  Key n "t" (IsList c (IsNumber c) r.t) ∧ Key n "value" (IsList c (IsNumber c) r.value)

def IsBlockedDof (c : Conv K) (r : BlockedDof K) (n : Yaml) : Prop :=
  OptKey n "from CSV" (IsList c IsCsvDof r.fromCsv) (r.fromCsv = []) ∧
  OptKey n "from YAML" (IsList c (IsYamlDof c) r.fromYaml) (r.fromYaml = [])

def IsBody (c : Conv K) (r : BodyNode K) (n : Yaml) : Prop :=
  Key n "name" (IsText r.name) ∧ OptKey n "mesh" (IsText r.mesh) (r.mesh = "") ∧
  OptKey n "external forces" (IsList c IsModel r.externalForces) (r.externalForces = []) ∧
  OptKey n "controlled forces" (IsList c IsModel r.controlledForces) (r.controlledForces = []) ∧
  Key n "position of body frame relative to mesh" (IsPosition c r.bodyFrame) ∧
  Key n "initial position of body frame relative to NED" (IsPosition c r.initialPosition) ∧
  Key n "initial velocity of body frame relative to NED" (IsSpeed c r.initialVelocity) ∧
  Key n "dynamics" (IsDynamics c r.dynamics) ∧
  OptKey n "blocked dof" (IsBlockedDof c r.blocked) (r.blocked = { fromCsv := [], fromYaml := [] })

def IsConstants (c : Conv K) (r : Constants K) (n : Yaml) : Prop :=
  Key n "g" (IsQuantity c r.g) ∧ Key n "rho" (IsQuantity c r.rho) ∧ Key n "nu" (IsQuantity c r.nu)

/-- The commands: all the keys but `name` and `t`, in the order of the file, each with its values. -/
def IsCommands (c : Conv K) (r : CommandsNode K) (n : Yaml) : Prop :=
  Key n "name" (IsText r.name) ∧ Key n "t" (IsList c (IsNumber c) r.t) ∧
  ∃ l, n = .map l ∧ List.Forall₂ (fun (x : String × List K) (y : String × Yaml) => x.1 = y.1 ∧ IsQuantities c x.2 y.2)
    r.commands (l.filter (fun y => y.1 ≠ "name" ∧ y.1 ≠ "t"))

/-- The whole file.  `conv` is what a list of words means as a rotation convention. -/
def IsSim [OfNat K 0] (c : Conv K) (conv : List String → Xdyn.Setup.Rotation → Prop) (r : SimInput K) (n : Yaml) : Prop :=
  OptKey n "environmental constants" (IsConstants c r.constants) (r.constants = { g := 0, rho := 0, nu := 0 }) ∧
  OptKey n "bodies" (IsList c (IsBody c) r.bodies) (r.bodies = []) ∧
  Key n "rotations convention" (fun m => ∃ l, IsList c IsText l m ∧ conv l r.rotations) ∧
  OptKey n "environment models" (IsList c IsModel r.environment) (r.environment = []) ∧
  OptKey n "commands" (IsList c (IsCommands c) r.commands) (r.commands = [])

/-! ### Force models -/

def IsConstantForce (c : Conv K) (r : ConstantForce K) (n : Yaml) : Prop :=
  Key n "frame" (IsText r.frame) ∧ IsCoords c r.point n ∧
  Key n "X" (IsQuantity c r.X) ∧ Key n "Y" (IsQuantity c r.Y) ∧ Key n "Z" (IsQuantity c r.Z) ∧
  Key n "K" (IsQuantity c r.K') ∧ Key n "M" (IsQuantity c r.M) ∧ Key n "N" (IsQuantity c r.N)

def IsResistance (c : Conv K) (r : Resistance K) (n : Yaml) : Prop :=
  Key n "speed" (IsQuantities c r.Va) ∧ Key n "resistance" (IsQuantities c r.R)

def IsStationKeeping (c : Conv K) (r : StationKeeping K) (n : Yaml) : Prop :=
  Key n "name" (IsText r.name) ∧
  Key n "ksi_x" (IsNumber c r.ksiX) ∧ Key n "T_x" (IsQuantity c r.TX) ∧
  Key n "ksi_y" (IsNumber c r.ksiY) ∧ Key n "T_y" (IsQuantity c r.TY) ∧
  Key n "ksi_psi" (IsNumber c r.ksiPsi) ∧ Key n "T_psi" (IsQuantity c r.TPsi)

def IsHeadingKeeping (c : Conv K) (r : HeadingKeeping K) (n : Yaml) : Prop :=
  Key n "name" (IsText r.name) ∧ Key n "ksi" (IsNumber c r.ksi) ∧ Key n "Tp" (IsQuantity c r.Tp)

/-- `clockwise` says what the file says about the rotation. -/
def IsPropellerExceptRotation (c : Conv K) (r : Propeller K) (n : Yaml) : Prop :=
  Key n "thrust deduction factor t" (IsNumber c r.thrustDeduction) ∧
  Key n "wake coefficient w" (IsNumber c r.wake) ∧ Key n "name" (IsText r.name) ∧
  Key n "position of propeller frame" (IsPosition c r.position) ∧
  Key n "relative rotative efficiency etaR" (IsNumber c r.etaR) ∧ Key n "diameter" (IsQuantity c r.diameter)

def IsRudder (c : Conv K) (r : RudderNode K) (n : Yaml) : Prop :=
  Key n "rudder area" (IsQuantity c r.area) ∧ Key n "rudder height" (IsQuantity c r.height) ∧
  Key n "effective aspect ratio factor" (IsNumber c r.aspect) ∧
  Key n "lift tuning coefficient" (IsNumber c r.lift) ∧ Key n "drag tuning coefficient" (IsNumber c r.drag) ∧
  Key n "position of rudder in body frame" (IsCoords c r.position)

def Quadrature.word : Quadrature → String
  | .gaussKronrod => "gauss-kronrod" | .rectangle => "rectangle" | .simpson => "simpson"
  | .trapezoidal => "trapezoidal" | .burcher => "burcher" | .clenshawCurtis => "clenshaw-curtis" | .filon => "filon"

def IsRadiation (c : Conv K) (r : Radiation K) (n : Yaml) : Prop :=
  Key n "hdb" (IsText r.hdb) ∧
  Key n "type of quadrature for cos transform" (IsText r.cosTransform.word) ∧
  Key n "type of quadrature for convolution" (IsText r.convolution.word) ∧
  Key n "nb of points for retardation function discretization" (IsNat c r.points) ∧
  Key n "omega min" (IsQuantity c r.omegaMin) ∧ Key n "omega max" (IsQuantity c r.omegaMax) ∧
  Key n "tau min" (IsQuantity c r.tauMin) ∧ Key n "tau max" (IsQuantity c r.tauMax) ∧
  Key n "output Br and K" (IsBool c r.output) ∧ Key n "calculation point in body frame" (IsCoords c r.point)

def IsDiffraction (c : Conv K) (r : DiffractionNode K) (n : Yaml) : Prop :=
  Key n "hdb" (IsText r.hdb) ∧ Key n "calculation point in body frame" (IsCoords c r.point) ∧
  Key n "mirror for 180 to 360" (IsBool c r.mirror)

def Hydrostatic.word : Hydrostatic → String
  | .hydrostatic => "hydrostatic" | .exact => "non-linear hydrostatic (exact)" | .fast => "non-linear hydrostatic (fast)"

def IsGM (c : Conv K) (r : GMNode K) (n : Yaml) : Prop :=
  Key n "name of hydrostatic force model" (IsText r.model.word) ∧ Key n "roll step" (IsQuantity c r.rollStep)

def IsLinearHydrostatic (c : Conv K) (r : LinearHydrostaticNode K) (n : Yaml) : Prop :=
  Key n "z eq" (IsQuantity c r.zEq) ∧ Key n "phi eq" (IsQuantity c r.phiEq) ∧ Key n "theta eq" (IsQuantity c r.thetaEq) ∧
  Key n "K row 1" (IsList c (IsNumber c) r.K1) ∧ Key n "K row 2" (IsList c (IsNumber c) r.K2) ∧
  Key n "K row 3" (IsList c (IsNumber c) r.K3) ∧
  Key n "x1" (IsQuantity c (r.x 0)) ∧ Key n "x2" (IsQuantity c (r.x 1)) ∧ Key n "x3" (IsQuantity c (r.x 2)) ∧
  Key n "x4" (IsQuantity c (r.x 3)) ∧
  Key n "y1" (IsQuantity c (r.y 0)) ∧ Key n "y2" (IsQuantity c (r.y 1)) ∧ Key n "y3" (IsQuantity c (r.y 2)) ∧
  Key n "y4" (IsQuantity c (r.y 3))

/-- The 6×6 matrix whose rows are given: six rows of six numbers. -/
def IsSquare6 (c : Conv K) (M : Fin 6 → Fin 6 → K) (n : Yaml) : Prop :=
  IsRows c (fun i => [M i 0, M i 1, M i 2, M i 3, M i 4, M i 5]) n

/-- The commands of a maneuvering model: those of the key `commands`, if any. -/
def IsManeuvering (c : Conv K) (r : ManeuveringNode K) (n : Yaml) : Prop :=
  Key n "reference frame" (IsPosition c r.position) ∧ Key n "name" (IsText r.name) ∧
  OptKey n "commands" (IsList c IsText r.commands) (r.commands = []) ∧
  ∃ l, n = .map l ∧ List.Forall₂ (fun (x : String × String) (y : String × Yaml) => x.1 = y.1 ∧ IsText x.2 y.2)
    r.expressions (l.filter (fun y => y.1 ≠ "commands" ∧ y.1 ≠ "reference frame"))

def IsGrpcForce (r : GrpcForce) (n : Yaml) : Prop :=
  Key n "url" (IsText r.url) ∧ Key n "name" (IsText r.name) ∧ r.yaml = n

end Xdyn.Input
