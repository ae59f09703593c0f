import Verif.Model.Server
import Verif.Spec.Json

/-
Model of the JSON messages of the websocket servers: yaml_parser/src/parse_history.cpp, executables/src/xdyn_for_cs.cpp,
executables/src/xdyn_for_me.cpp, executables/src/report_xdyn_exceptions_to_user.cpp.

Texts are lists of characters.  A double is a finite number, NaN or an infinity; `show` is the text written by `operator<<` for a
finite double with 17 digits.  JSON texts are read by rapidjson (Spec/Json): `decode` starts from the tree.
-/

namespace Xdyn.JsonApi

open JsonText Server

variable {N : Type}

/-- A `double`. -/
inductive Dbl (N : Type) where
  | fin (x : N)
  | nan
  | inf (negative : Bool)
deriving DecidableEq

/-- `operator<<(std::ostream&, double)`. -/
def Dbl.text (sh : N → List Char) : Dbl N → List Char
  | .fin x => sh x
  | .nan => "nan".toList
  | .inf false => "inf".toList
  | .inf true => "-inf".toList

/-- `YamlState` with its `extra_observations`, in the order of the iteration on the map. -/
structure OutState (N : Type) extends YamlState (Dbl N) where
  extra : List (String × Dbl N)

/-- One entry of `extra_observations`, parse_history.cpp:74-84. -/
def obsEntry (sh : N → List Char) (p : String × Dbl N) : List Char :=
  "\"".toList ++ p.1.toList ++ "\": ".toList ++ (match p.2 with
    | .nan => "null".toList
    | d => d.text sh)

/-- The loop of parse_history.cpp:73-90. -/
def obsLoop (sh : N → List Char) : List (String × Dbl N) → List Char
  | [] => []
  | [p] => obsEntry sh p
  | p :: q :: l => obsEntry sh p ++ ", ".toList ++ obsLoop sh (q :: l)

/-- `operator<<(std::ostream&, const std::map<std::string, double>&)`, parse_history.cpp:69-93. -/
def obsText (sh : N → List Char) (m : List (String × Dbl N)) : List Char := "{".toList ++ obsLoop sh m ++ "}".toList

/-- `"\"key\": " << value << ", "`. -/
def entry (sh : N → List Char) (p : String × Dbl N) : List Char := "\"".toList ++ p.1.toList ++ "\": ".toList ++ p.2.text sh ++ ", ".toList

/-- The keys and the values of lines 105-121 of parse_history.cpp. -/
def stateEntries (s : OutState N) : List (String × Dbl N) :=
  [("t", s.t), ("x", s.x), ("y", s.y), ("z", s.z), ("u", s.u), ("v", s.v), ("w", s.w), ("p", s.p), ("q", s.q), ("r", s.r), ("qr", s.qr), ("qi", s.qi), ("qj", s.qj), ("qk", s.qk), ("phi", s.phi), ("theta", s.theta), ("psi", s.psi)]

/-- One state, parse_history.cpp:104-124. -/
def stateText (sh : N → List Char) (s : OutState N) : List Char :=
  "{".toList ++ (stateEntries s).flatMap (entry sh) ++ "\"extra_observations\": ".toList ++ obsText sh s.extra ++ "}".toList

/-- The loop of parse_history.cpp:102-127. -/
def statesLoop (sh : N → List Char) : List (OutState N) → List Char
  | [] => []
  | [s] => stateText sh s ++ "\n".toList
  | s :: s' :: l => stateText sh s ++ ",".toList ++ "\n".toList ++ statesLoop sh (s' :: l)

/-- `encode_YamlStates`, parse_history.cpp:95-129. -/
def encode (sh : N → List Char) (l : List (OutState N)) : List Char := "[".toList ++ statesLoop sh l ++ "]".toList

/-! ### Requests -/

def jsonError : Err := .throw "ssc::json::Exception"

/-- `ssc::json::find_double` (ssc is not in the repository: a missing key, and a value that is not a number, are taken to raise an exception). -/
def findDouble (k : String) (v : Value N) : Except Err N :=
  match v with
  | .obj m => match get? m k with
    | some (.num n) => .ok n
    | _ => .error jsonError
  | _ => .error jsonError

/-- `ssc::json::find_optional_double` (not in the repository). -/
def findOptionalDouble (k : String) (v : Value N) (d : N) : Except Err N :=
  match v with
  | .obj m => match get? m k with
    | none => .ok d
    | some (.num n) => .ok n
    | _ => .error jsonError
  | _ => .error jsonError

/-- Body of the loop of parse_history.cpp:27-45; the angles are 0 (constructor of `YamlState`). -/
def decodeState [Zero N] (v : Value N) : Except Err (YamlState N) := do
  let t ← findDouble "t" v
  let x ← findDouble "x" v
  let y ← findDouble "y" v
  let z ← findDouble "z" v
  let u ← findDouble "u" v
  let v' ← findDouble "v" v
  let w ← findDouble "w" v
  let p ← findDouble "p" v
  let q ← findDouble "q" v
  let r ← findDouble "r" v
  let qr ← findDouble "qr" v
  let qi ← findDouble "qi" v
  let qj ← findDouble "qj" v
  let qk ← findDouble "qk" v
  return { t, x, y, z, u, v := v', w, p, q, r, qr, qi, qj, qk, phi := 0, theta := 0, psi := 0 }

/-- The loop of parse_history.cpp:57-60: `commands[name] = find_double(name, commands)` for each member. -/
def decodeCommands (m : List (List Char × Value N)) : Except Err (String → Option N) :=
  m.foldlM (fun c p => do
    let name := String.ofList p.1
    let d ← findDouble name (.obj m)
    return (fun n => if n = name then some d else c n)) (fun _ => none)

/-- Lines 46-64 of parse_history.cpp. -/
def commandsMember (m : List (List Char × Value N)) : Except Err (String → Option N) :=
  match get? m "commands" with
  | none => .ok (fun _ => none)
  | some .null => .ok (fun _ => none)
  | some (.obj c) => decodeCommands c
  | some _ => .error jsonError

/-- `decode_YamlSimServerInputs`, parse_history.cpp:9-66, from the JSON tree. -/
def decode [Zero N] (document : Value N) : Except Err (YamlInputs N) :=
  match document with
  | .obj m =>
    match get? m "states" with
    | none => .error jsonError
    | some (.arr l) => do
      let Dt ← findOptionalDouble "Dt" (.obj m) 0
      let states ← l.mapM decodeState
      let commands ← commandsMember m
      return { Dt, states, commands }
    | some _ => .error jsonError
  | _ => .error jsonError

/-! ### Responses of the servers -/

/-- The exceptions that are caught by report_xdyn_exceptions_to_user.cpp:22-88, in the order of the `catch` clauses. -/
inductive Exc where
  | programOptions | invalidInput | internalError | mesh | numerical | websocket | connexion | json | other | yaml | std
deriving DecidableEq, Repr

/-- `report_xdyn_exceptions_to_user`, report_xdyn_exceptions_to_user.cpp:19-93: what is given to the outputter (`none` if it is not called).  `message` is
`get_message()`, `what()` or, for YAML, the message with its mark. -/
def report (e : Exc) (message : List Char) : Option (List Char) :=
  match e with
  | .programOptions => some ("The command-line you supplied is not valid:\n\t".toList ++ message ++
      "\nTry running the program again with the -h flag to get a list of supported options.\n".toList)
  | .invalidInput => some ("The input you provided is invalid & we cannot simulate. ".toList ++ message ++ "\n".toList)
  | .internalError => some ("The following error should never arise & is clearly a sign of a bug in the simulator. Please contact the support team.\n".toList ++
      message ++ "\n".toList)
  | .mesh => none
  | .numerical => some ("The simulation has diverged and cannot continue: ".toList ++ message ++
      "\nMaybe you can use another solver? For example, if you used a Euler integration scheme, maybe the simulation can be run with\na Runge-Kutta 4 solver (--solver rk4) or a Runge-Kutta-Cash-Karp solver (--solver rkck)\n".toList)
  | .websocket => none
  | .connexion => some ("This simulation requires X-DYN to connect to a server but there was a problem with that connection: ".toList ++ message ++ "\n".toList)
  | .json => some ("There is a syntax problem with the supplied JSON: ".toList ++ message ++ "\n".toList)
  | .other => some ("The following problem was detected:\n".toList ++ message ++ "\n".toList)
  | .yaml => some ("There is a syntax problem with the YAML file ".toList ++ message ++
      ".\nPlease note that as all YAML files supplied on the command-line are concatenated, the line number given here corresponds to the line number in the concatenated YAML.\n".toList)
  | .std => some ("Something bad has happened: please send an email to the support team containing the following:\n- Input YAML file(s) + STL (if needed)\n- Command-line arguments\n- The following error message: ".toList ++
      message ++ "\n".toList)

/-- `replace_newlines_by_spaces` of the error response, xdyn_for_cs.cpp:26-31 and 45. -/
def errorText (what : List Char) : List Char :=
  ("{\"error\": \"".toList ++ what ++ "\"}".toList).map (fun c => if c = '\n' then ' ' else c)

/-- `SimulationMessage::operator()`, xdyn_for_cs.cpp:38-52 (`xdyn_for_me.cpp:56-99` has the same structure): the messages sent to the client. `result` is the text
computed from the request, or an exception. -/
def respond (result : Except (Exc × List Char) (List Char)) : List (List Char) :=
  match result with
  | .ok text => [text]
  | .error (e, message) => match report e message with
    | some what => [errorText what]
    | none => []

/-- The response of `xdyn_for_me`, xdyn_for_me.cpp:73-90 (`dx_dt[i]` is not checked; `calculate_dx_dt` gives thirteen values): entries
`"key": value` with a comma between them. -/
def derivativesText (sh : N → List Char) (d : List (Dbl N)) : Except Err (List Char) := do
  let d0 ← getUB d 0
  let d1 ← getUB d 1
  let d2 ← getUB d 2
  let d3 ← getUB d 3
  let d4 ← getUB d 4
  let d5 ← getUB d 5
  let d6 ← getUB d 6
  let d7 ← getUB d 7
  let d8 ← getUB d 8
  let d9 ← getUB d 9
  let d10 ← getUB d 10
  let d11 ← getUB d 11
  let d12 ← getUB d 12
  let entry (k : String) (v : Dbl N) : List Char := "\"".toList ++ k.toList ++ "\": ".toList ++ v.text sh
  return "{".toList ++ List.intercalate ",".toList [entry "dx_dt" d0, entry "dy_dt" d1, entry "dz_dt" d2, entry "du_dt" d3, entry "dv_dt" d4, entry "dw_dt" d5, entry "dp_dt" d6, entry "dq_dt" d7, entry "dr_dt" d8, entry "dqr_dt" d9, entry "dqi_dt" d10, entry "dqj_dt" d11, entry "dqk_dt" d12] ++ "}".toList

end Xdyn.JsonApi
