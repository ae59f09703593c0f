/-
Model of parts of the configuration of a simulation: format and address of the outputs
(code/yaml_parser/src/parse_output.cpp, parse_address.cpp), construction of the wave model, of the
force models and of the history (code/core/src/SimulatorBuilder.cpp), commands
(code/parser_extensions/src/listeners.cpp, code/core/src/ControllableForceModel.cpp).

Text is a list of characters (bytes).
-/
import Mathlib.Algebra.Order.Field.Basic
import Verif.Model.Common

namespace Xdyn.Config

abbrev Text := List Char

/-! ### Output format -/

/-- `filename.substr(n-k,k)` where `n = filename.size()`: `n-k` is unsigned, so that it is larger
than `n` if `k > n`, and std::out_of_range is thrown -/
def lastChars (s : Text) (k : Nat) : Except Err Text :=
  if k ≤ s.length then .ok (s.drop (s.length - k)) else .error (.throw "std::out_of_range")

def invalidInput : Err := .throw "InvalidInputException"

/-- one line `if (filename.substr(n-k,k) == ext) return format;` -/
def testExt (s : Text) (ext : String) (format : String) (next : Except Err String) :
    Except Err String :=
  match lastChars s ext.toList.length with
  | .error e => .error e
  | .ok x => if x = ext.toList then .ok format else next

/-- get_format, parse_output.cpp:116-132 -/
def getFormat (s : Text) : Except Err String :=
  if s.length = 0 then .ok "tsv"
  else if s.length ≤ 3 then .error invalidInput
  else
    testExt s ".h5" "hdf5" <| testExt s ".hdf5" "hdf5" <| testExt s ".csv" "csv" <|
      testExt s ".tsv" "tsv" <| testExt s ".json" "json" <| .error invalidInput

/-- get_format_for_wave_observer, parse_output.cpp:100-114 -/
def getFormatForWaveObserver (s : Text) : Except Err String :=
  if s.length ≤ 3 then .error invalidInput
  else
    testExt s ".h5" "hdf5" <| testExt s ".hdf5" "hdf5" <| testExt s ".H5" "hdf5" <|
      testExt s ".HDF5" "hdf5" <| .error invalidInput

/-! ### Websocket addresses -/

/-- YamlOutput -/
structure Output where
  format : String
  filename : Text := []
  address : Text := []
  port : Nat := 0
  data : List Text := []
deriving DecidableEq

/-- std::isspace in the C locale -/
def isSpace (c : Char) : Bool :=
  c == ' ' || c == '\t' || c == '\n' || c == '\r' || c.toNat == 11 || c.toNat == 12

/-- value of a sequence of decimal digits -/
def decimal (s : Text) : Nat := s.foldl (fun n c => 10 * n + (c.toNat - '0'.toNat)) 0

/-- conversion to int: undefined behaviour if the number is not an int -/
def toInt (n : Int) : Except Err Int :=
  if -2147483648 ≤ n ∧ n ≤ 2147483647 then .ok n else .error .ub

/-- std::atoi (parse_address.cpp:65): leading white space, optional sign, digits; what follows is
ignored -/
def atoi (s : Text) : Except Err Int :=
  let s := s.dropWhile isSpace
  if s.head? = some '-' then toInt (-(decimal (s.tail.takeWhile Char.isDigit) : Int))
  else if s.head? = some '+' then toInt (decimal (s.tail.takeWhile Char.isDigit) : Int)
  else toInt (decimal (s.takeWhile Char.isDigit) : Int)

/-- regex_match with "(ws|wss)://([^/ :]+):?([^/ ]*)(/?[^ #?]*)\x3f?([^ #]*)#?([^ ]*)",
parse_address.cpp:10, 54-58: (protocol, domain, port). No class of the expression contains the
space, and the end of the expression matches every text without space: the match is the one of the
greedy choices. -/
def matchUrl (url : Text) : Option (Text × Text × Text) :=
  if ' ' ∈ url then none
  else
    let go (protocol : Text) (rest : Text) : Option (Text × Text × Text) :=
      let domain := rest.takeWhile (fun c => !(c == '/' || c == ' ' || c == ':'))
      let r := rest.dropWhile (fun c => !(c == '/' || c == ' ' || c == ':'))
      let r := if r.head? = some ':' then r.tail else r
      if domain = [] then none
      else some (protocol, domain, r.takeWhile (fun c => !(c == '/' || c == ' ')))
    if "ws://".toList.isPrefixOf url then go "ws".toList (url.drop 5)
    else if "wss://".toList.isPrefixOf url then go "wss".toList (url.drop 6)
    else none

/-- build_YamlOutput_from_WS_URL, parse_address.cpp:49-80 -/
def fromUrl (url : Text) : Except Err Output :=
  match matchUrl url with
  | none => .error invalidInput
  | some (protocol, domain, port) =>
    if protocol ≠ "ws".toList then .error invalidInput
    else
      match atoi port with
      | .error e => .error e
      | .ok n =>
        if n ≤ 0 ∨ n > 65535 then .error invalidInput
        else .ok { format := "ws", address := protocol ++ "://".toList ++ domain, port := n.toNat }

/-- build_YamlOutput_from_filename, parse_output.cpp:135-168 -/
def fromFilename (s : Text) : Except Err Output :=
  if s = [] ∨ s = "tsv".toList then .ok { format := "tsv" }
  else if s = "csv".toList then .ok { format := "csv" }
  else if s = "json".toList then .ok { format := "json" }
  else if s = "h5".toList ∨ s = "hdf5".toList then .error invalidInput
  else if "ws".toList.isPrefixOf s then fromUrl s
  else
    match getFormat s with
    | .error e => .error e
    | .ok f => .ok { format := f, filename := s }

/-- the variables written for a body, parse_output.cpp:61-77 -/
def stateNames : List String :=
  ["x", "y", "z", "u", "v", "w", "p", "q", "r", "qr", "qi", "qj", "qk", "phi", "theta", "psi"]

/-- customize, parse_output.cpp:54-57 -/
def customize (var body : Text) : Text := var ++ "(".toList ++ body ++ ")".toList

/-- generate_default_outputter_with_all_states_in_it, parse_output.cpp:59-78, 170-177 -/
def defaultOutputter (bodies : List Text) (filename : Text) : Except Err Output :=
  match fromFilename filename with
  | .error e => .error e
  | .ok out =>
    .ok { out with
      data := out.data ++ "t".toList ::
        (bodies.map fun b => stateNames.map fun v => customize v.toList b).flatten }

/-! ### Wave model -/

section
variable {M W : Type}

/-- one parser on one model, SimulatorBuilder.cpp:83-95: `st` is (ret, wave_model_successfully_parsed) -/
def tryWaveParser (m : M) (st : Option W × Bool) (parser : M → Except Err (Option W)) :
    Except Err (Option W × Bool) :=
  match parser m with
  | .error e => .error e
  | .ok none => .ok st
  | .ok (some w) =>
    match st.1 with
    | some _ => .error (.throw "InternalErrorException: more than one wave model")
    | none => .ok (some w, true)

/-- SimulatorBuilder::get_wave, SimulatorBuilder.cpp:73-102; `none` is the null pointer. The wave
model a parser builds is never a null pointer (SurfaceElevationBuilder). -/
def getWave (parsers : List (M → Except Err (Option W))) (environment : List M) :
    Except Err (Option W) :=
  if parsers = [] then .error (.throw "InternalErrorException: no wave parser")
  else
    environment.foldlM (fun ret m =>
      match parsers.foldlM (tryWaveParser m) (ret, false) with
      | .error e => .error e
      | .ok (ret, parsed) => if parsed then .ok ret else .error invalidInput) none

end

/-! ### Force models -/

/-- YamlModel: name of the model and its YAML -/
structure Model (Y : Type) where
  model : Text
  yaml : Y
deriving DecidableEq

/-- ForceModel::build_parser and ControllableForceModel::build_parser, ForceModel.hpp:60-103: a
parser is the name of the model and its construction, which may throw -/
structure Parser (Y F : Type) where
  name : Text
  build : Y → Except Err F

section
variable {Y F C : Type}

def Parser.tryToParse (p : Parser Y F) (m : Model Y) : Except Err (Option F) :=
  if m.model = p.name then (p.build m.yaml).map some else .ok none

/-- could_parse, SimulatorBuilder.cpp:162-184 -/
def couldParse : List (Parser Y C) → Model Y → Bool
  | [], _ => false
  | p :: l, m =>
    match p.tryToParse m with
    | .ok (some _) => true
    | .ok none => couldParse l m
    | .error e => decide (e = invalidInput)

/-- one parser of SimulatorBuilder::add, SimulatorBuilder.cpp:189-197, 212-220: `st` is (L, parsed) -/
def tryForceParser (m : Model Y) (st : List F × Bool) (p : Parser Y F) :
    Except Err (List F × Bool) :=
  match p.tryToParse m with
  | .error e => .error e
  | .ok (some f) => .ok (st.1 ++ [f], true)
  | .ok none => .ok st

/-- SimulatorBuilder::add, SimulatorBuilder.cpp:186-207 (uncontrolled) and 209-229 (controlled): the
second list is the one of the parsers of the other kind -/
def addModel (parsers : List (Parser Y F)) (others : List (Parser Y C)) (L : List F)
    (m : Model Y) : Except Err (List F) :=
  match parsers.foldlM (tryForceParser m) (L, false) with
  | .error e => .error e
  | .ok (L', parsed) =>
    if parsed then .ok L'
    else if couldParse others m then .error (.throw "InvalidInputException: wrong section")
    else .error (.throw "InvalidInputException: unknown model")

/-- forces_from and controlled_forces_from, SimulatorBuilder.cpp:142-160 -/
def forcesFrom (parsers : List (Parser Y F)) (others : List (Parser Y C)) (models : List (Model Y)) :
    Except Err (List F) := models.foldlM (addModel parsers others) []

end

/-! ### History length -/

section
variable {K : Type} [Field K] [LinearOrder K]

/-- what get_max_history_length reads of a force: get_body_name() and get_Tmax() -/
structure Force (K : Type) where
  body : Text
  tmax : K

/-- `std::map<std::string,double>`: reading a missing key with operator[] gives 0 -/
abbrev LengthMap (K : Type) := Text → K

/-- the maximum, SimulatorBuilder.cpp:119-120, 125-126 -/
def maxTmax (forces : List (Force K)) : K := forces.foldl (fun T f => max T f.tmax) 0

def LengthMap.set (m : LengthMap K) (k : Text) (v : K) : LengthMap K := fun x => if x = k then v else m x

/-- SimulatorBuilder.cpp:117-122: the length is stored under the body name of the first force -/
def recordForces (m : LengthMap K) : List (Force K) → LengthMap K
  | [] => m
  | f :: l => m.set f.body (maxTmax (f :: l))

/-- SimulatorBuilder.cpp:123-128 -/
def recordControlled (m : LengthMap K) : List (Force K) → LengthMap K
  | [] => m
  | f :: l => m.set f.body (max (maxTmax (f :: l)) (m f.body))

/-- SimulatorBuilder::get_max_history_length, SimulatorBuilder.cpp:114-130 -/
def getMaxHistoryLength (forces controlled : List (List (Force K))) : LengthMap K :=
  controlled.foldl recordControlled (forces.foldl recordForces (fun _ => 0))

/-! ### Commands -/

/-- YamlCommands -/
structure Commands (K : Type) where
  name : Text
  t : List K
  commands : List (Text × List K)

/-- namify, listeners.cpp:28-32, and ControllableForceModel.cpp:85 -/
def namify (command model : Text) : Text := model ++ "(".toList ++ command ++ ")".toList

/-- a signal of the data source: a constant or an interpolation table -/
inductive Signal (K : Type) where
  | constant (v : K)
  | table (t values : List K)

/-- add, listeners.cpp:34-61; `mkTable` is the construction of SSC's LinearInterpolationVariableStep,
which may throw. The signals are the pairs (name, signal) of the data source, the last one first. -/
def addCommands (mkTable : List K → List K → Except Err Unit) (ds : List (Text × Signal K))
    (c : Commands K) : Except Err (List (Text × Signal K)) :=
  if c.t.length = 1 then
    c.commands.foldlM (fun ds it =>
      match it.2.head? with
      | none => .error .ub
      | some v => .ok ((namify it.1 c.name, .constant v) :: ds)) ds
  else
    c.commands.foldlM (fun ds it =>
      match mkTable c.t it.2 with
      | .error e => .error e
      | .ok () => .ok ((namify it.1 c.name, .table c.t it.2) :: ds)) ds

/-- make_command_listener, listeners.cpp:63-74 -/
def makeCommandListener (mkTable : List K → List K → Except Err Unit) (l : List (Commands K)) :
    Except Err (List (Text × Signal K)) := l.foldlM (addCommands mkTable) []

/-- value of a signal when the signal "t" is set to `t`; `interp` is SSC's linear interpolation
(InterpolationModule.cpp:32-37) -/
def Signal.value (interp : List K → List K → K → Except Err K) (t : K) : Signal K → Except Err K
  | .constant v => .ok v
  | .table ts vs => interp ts vs t

/-- ControllableForceModel::get_command, ControllableForceModel.cpp:78-96 -/
def getCommand (interp : List K → List K → K → Except Err K) (ds : List (Text × Signal K))
    (model command : Text) (t : K) : Except Err K :=
  match ds.lookup (namify command model) with
  | none => .error invalidInput
  | some s => s.value interp t

/-- ControllableForceModel::get_commands, ControllableForceModel.cpp:41-51: the commands of the model
itself, then all the signals of the data source (`all`) that are not in the map yet. Values are
looked up with `List.lookup` (first pair), so that pairs at the end do not replace the others. -/
def getCommands (interp : List K → List K → K → Except Err K) (ds : List (Text × Signal K))
    (all : List (Text × K)) (model : Text) (commands : List Text) (t : K) :
    Except Err (List (Text × K)) :=
  match commands.mapM (fun c => (getCommand interp ds model c t).map fun v => (c, v)) with
  | .error e => .error e
  | .ok own => .ok (own ++ all)

end

end Xdyn.Config
