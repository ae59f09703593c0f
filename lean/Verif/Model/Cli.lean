import Verif.Model.Config

/-
Model of the three command line programs and of the choice of the outputs:
executables/src/xdyn.cpp (`solve`, `run_simulation`, `run`, `main`), parse_XdynCommandLineArguments.cpp,
XdynCommandLineArguments.cpp, xdyn_for_cs.cpp and xdyn_for_me.cpp (`main`),
parse_XdynForCSCommandLineArguments.cpp, parse_XdynForMECommandLineArguments.cpp,
build_observers_description.cpp, report_xdyn_exceptions_to_user.cpp,
yaml_parser/src/parse_output.cpp:19-52, observers_and_api/src/ListOfObservers.cpp:17-29,
core/src/EnvironmentAndFrames.cpp:17-36 and SimulatorBuilder.cpp:61-71.

External: boost::program_options gives the values of the options or throws
(`boost::program_options::error`, before any option is stored in the arguments); yaml-cpp reads a
list by resizing the vector, then reading the elements one after the other (stlnode.h).  The
simulation itself is a parameter.  Texts written on the terminal are not modelled, except whether
an error is displayed.
-/

namespace Xdyn.Cli

open Xdyn.Config

variable {K : Type} [Field K] [LinearOrder K]

/-! ### xdyn -/

/-- `XdynCommandLineArguments` (XdynCommandLineArguments.hpp). -/
structure Args (K : Type) where
  yaml : List Text
  solver : Text
  output : Text
  waves : Text
  dt : K
  tstart : K
  tend : K
  catchExceptions : Bool

/-- `XdynCommandLineArguments::empty`, XdynCommandLineArguments.cpp:21-25. -/
def Args.empty (a : Args K) : Bool :=
  a.waves.isEmpty && a.output.isEmpty && a.yaml.isEmpty && decide (a.dt = 0) && decide (a.tstart = 0) && decide (a.tend = 0)

/-- `invalid(XdynCommandLineArguments)`, parse_XdynCommandLineArguments.cpp:18-37. -/
def invalid (a : Args K) : Bool :=
  if a.empty then true
  else if a.yaml.isEmpty then true
  else if a.solver.isEmpty then true
  else if a.dt ≤ 0 then true
  else false

/-- What the command line is, once read by boost. -/
inductive CommandLine (A : Type) where
  /-- the program is called without argument -/
  | nothing
  /-- boost refuses the command line -/
  | refused
  /-- the options, and the flags `--help` and `--debug` -/
  | options (a : A) (help debug : Bool)

/-- How a program ends. -/
inductive Exit where
  | code (n : Int)
  /-- an exception is not caught: `std::terminate` -/
  | terminate
  /-- undefined behaviour -/
  | undefined
deriving DecidableEq

/-- What a program did: how it ended, the arguments of the simulation (or of the server) it started,
whether a message about an error was displayed. -/
structure Outcome (A : Type) where
  exit : Exit
  started : Option A
  message : Bool

/-- report_xdyn_exceptions_to_user.cpp:19-89: the handlers call `outputter` (or write on `std::cerr`)
except the one of `ssc::websocket::WebSocketException`, lines 55-61. -/
def reported (e : String) : Bool := e != "WebSocketException"

/-- A call made through `report_xdyn_exceptions_to_user` if `catching`, directly otherwise; every exception
derives from `std::exception`. -/
def guarded {A : Type} (catching : Bool) (a : A) (r : Except Err Unit) : Outcome A :=
  match r with
  | .ok _ => { exit := .code 0, started := some a, message := false }
  | .error .ub => { exit := .undefined, started := some a, message := false }
  | .error (.throw e) =>
    if catching then { exit := .code 0, started := some a, message := reported e }
    else { exit := .terminate, started := some a, message := true }

/-- `run`, xdyn.cpp:151-155, with `run_simulation`, xdyn.cpp:131-146. -/
def run (sim : Args K → Except Err Unit) (a : Args K) : Outcome (Args K) :=
  if a.empty then { exit := .code 0, started := none, message := false }
  else guarded a.catchExceptions a (sim a)

/-- `main` of xdyn, xdyn.cpp:159-194, with `parse_command_line_for_xdyn`,
parse_XdynCommandLineArguments.cpp:58-74 (after the help is printed, 0 is returned and `main` goes on). -/
def xdynMain (sim : Args K → Except Err Unit) : CommandLine (Args K) → Outcome (Args K)
  | .nothing => { exit := .code 0, started := none, message := false }
  | .refused => { exit := .code (-1), started := none, message := true }
  | .options a help debug =>
    if help then run sim { a with catchExceptions := !debug }
    else if invalid a then { exit := .code 1, started := none, message := true }
    else run sim { a with catchExceptions := !debug }

/-- Steppers of SSC. -/
inductive Solver where
  | euler | rk4 | rkck
deriving DecidableEq

/-- `solve`, xdyn.cpp:36-54. -/
def xdynSolver (s : Text) : Solver :=
  if s = "euler".toList then .euler
  else if s = "rk4".toList then .rk4
  else if s = "rkck".toList then .rkck
  else .euler

/-- `SimStepper::step`, SimStepper.cpp:63-78. -/
def serverSolver (s : Text) : Except Err Solver :=
  if s = "euler".toList then .ok .euler
  else if s = "rk4".toList then .ok .rk4
  else if s = "rkck".toList then .ok .rkck
  else .error (.throw "InvalidInputException")

/-! ### Servers -/

/-- `XdynForCSCommandLineArguments`; `port` is a `short unsigned int`. -/
structure CSArgs (K : Type) where
  yaml : List Text
  solver : Text
  dt : K
  port : Nat

/-- `XdynForCSCommandLineArguments::empty`, XdynForCSCommandLineArguments.cpp:16-19. -/
def CSArgs.empty (a : CSArgs K) : Bool := a.yaml.isEmpty && decide (a.dt = 0) && decide (a.port = 0)

/-- `invalid(XdynForCSCommandLineArguments)`, parse_XdynForCSCommandLineArguments.cpp:10-40. -/
def invalidCS (a : CSArgs K) : Bool :=
  if a.empty then true
  else if a.yaml.isEmpty then true
  else if a.solver.isEmpty then true
  else if a.dt ≤ 0 then true
  else if a.port = 0 then true
  else if a.port < 1024 then true
  else false

/-- The default values of `XdynForCSCommandLineArguments`, XdynForCSCommandLineArguments.cpp:11-14. -/
def CSArgs.default : CSArgs K := { yaml := [], solver := [], dt := 0, port := 0 }

/-- `main` of xdyn-for-cs, xdyn_for_cs.cpp:109-139, with `get_input_data`.  When boost refuses the
command line, the exception is reported and the arguments keep their default values. -/
def csMain (server : CSArgs K → Except Err Unit) : CommandLine (CSArgs K) → Outcome (CSArgs K)
  | .nothing => { exit := .code 0, started := none, message := false }
  | .refused =>
    if (CSArgs.default : CSArgs K).empty then { exit := .code 0, started := none, message := true }
    else guarded false CSArgs.default (server CSArgs.default)
  | .options a help debug =>
    if help then { exit := .code 0, started := none, message := false }
    else if invalidCS a then { exit := .code 1, started := none, message := true }
    else guarded (!debug) a (server a)

/-- `XdynForMECommandLineArguments`. -/
structure MEArgs where
  yaml : List Text
  port : Nat
deriving DecidableEq

/-- `XdynForMECommandLineArguments::empty`, XdynForMECommandLineArguments.cpp:20-23. -/
def MEArgs.empty (a : MEArgs) : Bool := a.yaml.isEmpty && decide (a.port = 0)

/-- `invalid(XdynForMECommandLineArguments)`, parse_XdynForMECommandLineArguments.cpp:18-38. -/
def invalidME (a : MEArgs) : Bool :=
  if a.empty then true
  else if a.yaml.isEmpty then true
  else if a.port = 0 then true
  else if a.port < 1024 then true
  else false

/-- The default values of `XdynForMECommandLineArguments`, XdynForMECommandLineArguments.cpp:10-18. -/
def MEArgs.default : MEArgs := { yaml := [], port := 0 }

/-- `main` of xdyn-for-me, xdyn_for_me.cpp:139-172: unlike xdyn-for-cs, the arguments are not tested with
`empty()`.  The default value of `catch_exceptions` is false. -/
def meMain (server : MEArgs → Except Err Unit) : CommandLine MEArgs → Outcome MEArgs
  | .nothing => { exit := .code 0, started := none, message := false }
  | .refused => guarded false MEArgs.default (server MEArgs.default)
  | .options a help debug =>
    if help then { exit := .code 0, started := none, message := false }
    else if invalidME a then { exit := .code 1, started := none, message := true }
    else guarded (!debug) a (server a)

/-! ### Outputs -/

/-- A field of a YAML map: missing, present with a wrong type, or present. -/
inductive YField (α : Type) where
  | missing
  | wrong
  | value (a : α)

/-- An element of the list `output` of the YAML file. -/
structure OutNode where
  filename : YField Text
  address : YField Text
  port : YField Nat
  format : YField String
  data : YField (List Text)

/-- An optional field, parse_output.cpp:21-32: the value, and whether reading goes on. -/
def optField {α : Type} (f : YField α) (d : α) : α × Bool :=
  match f with
  | .missing => (d, true)
  | .wrong => (d, false)
  | .value a => (a, true)

/-- A mandatory field, parse_output.cpp:33-34. -/
def mandatory {α : Type} (f : YField α) (d : α) : α × Bool :=
  match f with
  | .missing => (d, false)
  | .wrong => (d, false)
  | .value a => (a, true)

/-- The default `YamlOutput`, YamlOutput.cpp:10-12. -/
def Output.default : Output := { format := "" }

/-- `operator>>(const YAML::Node&, YamlOutput&)`, parse_output.cpp:19-35, on a new `YamlOutput`: its fields
when the function returns or throws (the flag is false if it throws). -/
def readOutput (n : OutNode) : Output × Bool :=
  let f := optField n.filename []
  if !f.2 then (Output.default, false)
  else
    let a := optField n.address []
    if !a.2 then ({ Output.default with filename := f.1 }, false)
    else
      let p := optField n.port 0
      if !p.2 then ({ Output.default with filename := f.1, address := a.1 }, false)
      else
        let fmt := mandatory n.format ""
        if !fmt.2 then ({ Output.default with filename := f.1, address := a.1, port := p.1 }, false)
        else
          let d := mandatory n.data []
          ({ format := fmt.1, filename := f.1, address := a.1, port := p.1, data := d.1 }, d.2)

/-- `node["output"] >> ret` for a list, parse_output.cpp:44-51: the vector is resized, then read; the
exception of an element stops the reading and is dropped. -/
def readOutputs : List OutNode → List Output
  | [] => []
  | n :: l =>
    if (readOutput n).2 then (readOutput n).1 :: readOutputs l
    else (readOutput n).1 :: l.map (fun _ => Output.default)

/-- `parse_output`, parse_output.cpp:37-52: `none` if there is no section `output`. -/
def parseOutput : Option (List OutNode) → List Output
  | none => []
  | some l => readOutputs l

/-- `create_a_wave_observer`, build_observers_description.cpp:19-26. -/
def waveObserver (waves : Text) : Except Err Output := do
  let f ← getFormatForWaveObserver waves
  .ok { format := f, filename := waves, data := ["waves".toList] }

/-- Line 36. -/
def appendsWaves (f : String) : Bool := f == "ws" || f == "hdf5" || f == "json"

/-- `add_observers_from_cli_with_output_filename`, build_observers_description.cpp:28-46. -/
def addWithFilename (bodies : List Text) (output waves : Text) (out : List Output) : Except Err (List Output) := do
  let o ← defaultOutputter bodies output
  if waves.isEmpty then .ok (out ++ [o])
  else if appendsWaves o.format then .ok (out ++ [{ o with data := o.data ++ ["waves".toList] }])
  else (waveObserver waves).bind (fun w => .ok (out ++ [w] ++ [o]))

/-- `build_observers_description`, build_observers_description.cpp:48-68, with `add_observers_from_cli`. -/
def observersDescription (section_ : Option (List OutNode)) (bodies : List Text) (output waves : Text) :
    Except Err (List Output) :=
  if !output.isEmpty then addWithFilename bodies output waves (parseOutput section_)
  else if !waves.isEmpty then (waveObserver waves).bind (fun w => .ok (parseOutput section_ ++ [w]))
  else .ok (parseOutput section_)

/-- The classes of observers. -/
inductive Kind where
  | csv | hdf5 | tsv | map | json | ws
deriving DecidableEq

/-- An observer: class, destination and data. -/
structure Obs where
  kind : Kind
  filename : Text
  address : Text
  port : Nat
  data : List Text
deriving DecidableEq

/-- The body of the loop of `ListOfObservers::ListOfObservers`, ListOfObservers.cpp:19-28. -/
def observersOf (o : Output) : List Obs :=
  (if o.format = "csv" then [⟨.csv, o.filename, [], 0, o.data⟩] else []) ++
  (if o.format = "h5" then [⟨.hdf5, o.filename, [], 0, o.data⟩] else []) ++
  (if o.format = "hdf5" then [⟨.hdf5, o.filename, [], 0, o.data⟩] else []) ++
  (if o.format = "tsv" then [⟨.tsv, o.filename, [], 0, o.data⟩] else []) ++
  (if o.format = "map" then [⟨.map, [], [], 0, o.data⟩] else []) ++
  (if o.format = "json" then [⟨.json, o.filename, [], 0, o.data⟩] else []) ++
  (if o.format = "ws" then [⟨.ws, [], o.address, o.port, o.data⟩] else [])

/-- `ListOfObservers::ListOfObservers(std::vector<YamlOutput>)`, ListOfObservers.cpp:17-29. -/
def listOfObservers (l : List Output) : List Obs := l.flatMap observersOf

/-! ### Environment constants -/

/-- `EnvironmentAndFrames`: density, viscosity, gravity. -/
structure Env (K : Type) where
  rho : K
  nu : K
  g : K

/-- `EnvironmentAndFrames::EnvironmentAndFrames()`, EnvironmentAndFrames.cpp:17-36. -/
def Env.new : Except Err (Env K) :=
  if (0 : K) < 0 then .error (.throw "InvalidInputException")
  else if (0 : K) < 0 then .error (.throw "InvalidInputException")
  else if (0 : K) < 0 then .error (.throw "InvalidInputException")
  else .ok { rho := 0, nu := 0, g := 0 }

/-- `SimulatorBuilder::get_environment`, SimulatorBuilder.cpp:61-71 (constants only). -/
def getEnvironment (rho nu g : K) : Except Err (Env K) := do
  let e ← (Env.new : Except Err (Env K))
  .ok { e with g := g, rho := rho, nu := nu }

end Xdyn.Cli
