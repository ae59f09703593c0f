import Verif.Model.Common
import Verif.Model.StdMap
import Mathlib.Data.String.Basic

/-
Model of core/src/Observer.cpp, core/inc/Observer.hpp and of the observers of
observers_and_api/src: CsvObserver.cpp, MapObserver.cpp, EverythingObserver.cpp,
DictObserver.cpp, JsonObserver.cpp, WebSocketObserver.cpp.

The closures stored in the maps `serialize` and `initialize` are represented by what they
capture: the value and its name.  `σ` is the part of the state that belongs to the subclass
(text already written, dictionaries...).  An exception ends the run (the partial text of
the line being written is not modelled).  Sim::output is a list of `write`s.
-/

namespace Xdyn.Obs

/-- What can be written in an observer: a scalar or a wave elevation grid. -/
inductive Val (N G : Type) where
  | num (x : N)
  | grid (g : G)

/-- The virtual functions of `Observer`, Observer.hpp:58-69. -/
structure Impl (σ ν : Type) where
  serializer : ν → String → σ → σ
  initializer : ν → String → σ → σ
  flushAfterInitialization : σ → σ
  beforeWrite : σ → σ
  flushAfterWrite : σ → σ
  flushValueDuringWrite : σ → σ
  flushValueDuringInitialization : σ → σ

/-- Data members of `Observer`, Observer.hpp:72-75. -/
structure Observer (σ ν : Type) where
  initialized : Bool
  requested : List String
  serialize : StdMap String ν
  inits : StdMap String ν
  sub : σ

variable {σ ν : Type}

/-- `Observer::Observer`, Observer.cpp:13-15. -/
def Observer.init (requested : List String) (s : σ) : Observer σ ν :=
  { initialized := false, requested := requested, serialize := [], inits := [], sub := s }

/-- `Observer::write`, Observer.hpp:42-48. -/
def Observer.write (o : Observer σ ν) (p : String × ν) : Observer σ ν :=
  { o with inits := o.inits.set p.1 p.2, serialize := o.serialize.set p.1 p.2 }

/-- Body of the loops of Observer.cpp:62-72 and 83-93: the call of the functor `f` of each
variable, followed by `sep` when `i < n-1` (`n-1` does not wrap: the body of the loop is only
executed when `n ≥ 1`). -/
def loopVars (m : StdMap String ν) (f : ν → String → σ → σ) (sep : σ → σ) (n : Nat) :
    List String → Nat → σ → Except Err σ
  | [], _, s => .ok s
  | v :: vs, i, s =>
    match m.find v with
    | none => .error (.throw "InvalidInputException")
    | some val =>
      let s := f val v s
      let s := if i < n - 1 then sep s else s
      loopVars m f sep n vs (i + 1) s

/-- `Observer::initialize_serialization_of_requested_variables`, Observer.cpp:56-76. -/
def Observer.initializeSerialization (I : Impl σ ν) (o : Observer σ ν) (vars : List String) :
    Except Err (Observer σ ν) :=
  if !o.initialized then do
    let s ← loopVars o.inits I.initializer I.flushValueDuringInitialization vars.length vars 0 o.sub
    return { o with initialized := true, sub := I.flushAfterInitialization s }
  else return { o with initialized := true }

/-- `Observer::serialize_requested_variables`, Observer.cpp:78-95. -/
def Observer.serializeVariables (I : Impl σ ν) (o : Observer σ ν) (vars : List String) :
    Except Err (Observer σ ν) := do
  let s ← loopVars o.serialize I.serializer I.flushValueDuringWrite vars.length vars 0 (I.beforeWrite o.sub)
  return { o with sub := I.flushAfterWrite s }

/-- `Observer::observe`, Observer.cpp:31-37: `tval` is the date (written under the name "t")
and `outs` what `Sim::output` writes. -/
def Observer.observe (I : Impl σ ν) (o : Observer σ ν) (tval : ν) (outs : List (String × ν)) :
    Except Err (Observer σ ν) := do
  let o := (("t", tval) :: outs).foldl Observer.write o
  let o ← o.initializeSerialization I o.requested
  o.serializeVariables I o.requested

/-- `Observer::observe_everything`, Observer.cpp:47-54, with `all_variables`, 39-45. -/
def Observer.observeEverything (I : Impl σ ν) (o : Observer σ ν) (tval : ν) (outs : List (String × ν)) :
    Except Err (Observer σ ν) := do
  let o := (("t", tval) :: outs).foldl Observer.write o
  let vars := o.inits.keys
  let o ← o.initializeSerialization I vars
  o.serializeVariables I vars

/-- A whole simulation: one call to `observe` per observed date (SimObserver and
`quicksolve`), until an exception. -/
def Observer.observeAll (I : Impl σ ν) (o : Observer σ ν) : List (ν × List (String × ν)) → Except Err (Observer σ ν)
  | [] => .ok o
  | (t, outs) :: l => do
    let o ← o.observe I t outs
    o.observeAll I l

/-! ### CsvObserver -/

/-- CsvObserver.cpp:28-51.  The state is the text written so far; `fmt` is `os << double`
with `std::scientific`.  Grids: the functions inherited from `Observer`, Observer.cpp:17-25,
write nothing.  `Observer::flush_value_during_initialization` is `flush_value_during_write`,
Observer.cpp:101-104; `before_write` does nothing, 27-29. -/
def csv {N G : Type} (fmt : N → List Char) : Impl (List Char) (Val N G) where
  serializer v _ s :=
    match v with
    | .num x => s ++ fmt x
    | .grid _ => s
  initializer v name s :=
    match v with
    | .num _ => s ++ name.toList.map (fun c => if c = ',' then ' ' else c)
    | .grid _ => s
  flushAfterInitialization s := s ++ ['\n']
  beforeWrite s := s
  flushAfterWrite s := s ++ ['\n']
  flushValueDuringWrite s := s ++ [',']
  flushValueDuringInitialization s := s ++ [',']

/-! ### MapObserver and EverythingObserver -/

/-- `m[k].push_back(x)` for a `std::map` of vectors. -/
def pushBack {N : Type} (m : StdMap String (List N)) (k : String) (x : N) : StdMap String (List N) :=
  m.set k (((m.find k).getD []) ++ [x])

/-- MapObserver.cpp:14-34 (grids: Observer.cpp:17-25). -/
def mapObs {N G : Type} : Impl (StdMap String (List N)) (Val N G) where
  serializer v name m :=
    match v with
    | .num x => pushBack m name x
    | .grid _ => m
  initializer v name m :=
    match v with
    | .num _ => m.set name []
    | .grid _ => m
  flushAfterInitialization m := m
  beforeWrite m := m
  flushAfterWrite m := m
  flushValueDuringWrite m := m
  flushValueDuringInitialization m := m

/-- `Res`, core/inc/Res.hpp:25-32: date, states, extra observations. -/
structure Res (N : Type) where
  t : N
  x : List N
  extra : StdMap String N
deriving DecidableEq

/-- A default `Res` (Res.cpp, used by `res.resize(n)`, EverythingObserver.cpp:115). -/
def Res.empty {N : Type} (zero : N) : Res N := { t := zero, x := [], extra := [] }

/-- `v.resize(n)`; the new elements are 0 for a vector of doubles: here `z`. -/
def resize {α : Type} (l : List α) (n : Nat) (z : α) : List α := l.take n ++ List.replicate (n - l.length) z

/-- Names of the thirteen states in the order of StateMacros.hpp (`XIDX(0)` = 0 ...
`QKIDX(0)` = 12). -/
def stateNames : List String := ["x", "y", "z", "u", "v", "w", "p", "q", "r", "qr", "qi", "qj", "qk"]

/-- `EverythingObserver::get_inserter` and `get_state_inserter`, EverythingObserver.cpp:37-102:
the first name that matches wins. -/
def inserter {N : Type} (zero : N) (body var : String) (r : Res N) (v : N) : Res N :=
  if var = "t" then { r with t := v }
  else
    match stateNames.findIdx? (fun s => var = s ++ "(" ++ body ++ ")") with
    | some i => { r with x := (resize r.x 13 zero).set i v }
    | none => { r with extra := r.extra.set var v }

/-- `EverythingObserver::add`, EverythingObserver.cpp:106-121. -/
def add {N : Type} (zero : N) (ins : Res N → N → Res N) (res : List (Res N)) (values : List N) : List (Res N) :=
  let res := if res.length < values.length then resize res values.length (Res.empty zero) else res
  (res.zipWith (fun r v => ins r v) values) ++ res.drop values.length

/-- `EverythingObserver::observe`, EverythingObserver.cpp:26-35: the state is the
`MapObserver` and the results `res`. -/
def everythingObserve {N G : Type} (zero : N) (body : String)
    (o : Observer (StdMap String (List N)) (Val N G) × List (Res N))
    (t : N) (outs : List (String × Val N G)) :
    Except Err (Observer (StdMap String (List N)) (Val N G) × List (Res N)) := do
  let o' ← o.1.observeEverything mapObs (.num t) outs
  return (o', o'.sub.foldl (fun res kv => add zero (inserter zero body kv.1) res kv.2) o.2)

/-- The observer of a co-simulation after a list of observations (EverythingObserver.cpp:12-14
for the initial state). -/
def everythingAll {N G : Type} (zero : N) (body : String) :
    Observer (StdMap String (List N)) (Val N G) × List (Res N) →
    List (N × List (String × Val N G)) → Except Err (Observer (StdMap String (List N)) (Val N G) × List (Res N))
  | o, [] => .ok o
  | o, (t, outs) :: l => do
    let o ← everythingObserve zero body o t outs
    everythingAll zero body o l

/-! ### DictObserver -/

/-- `std::string::npos` as 64-bit number. -/
def npos : Nat := 2 ^ 64 - 1

/-- 64-bit subtraction. -/
def sub64 (a b : Nat) : Nat := (a + 2 ^ 64 - b % 2 ^ 64) % 2 ^ 64
/-- 64-bit addition. -/
def add64 (a b : Nat) : Nat := (a + b) % 2 ^ 64

/-- `s.find(c)`. -/
def findFirst (s : List Char) (c : Char) : Nat :=
  match s.findIdx? (· = c) with
  | some i => i
  | none => npos

/-- `s.find_last_of(c)`. -/
def findLast (s : List Char) (c : Char) : Nat :=
  match s.reverse.findIdx? (· = c) with
  | some i => s.length - 1 - i
  | none => npos

/-- `s.substr(pos, len)`: throws when `pos > size`. -/
def substr (s : List Char) (pos len : Nat) : Except Err (List Char) :=
  if pos ≤ s.length then .ok ((s.drop pos).take len) else .error (.throw "out_of_range")

/-- `extractKeyVarFromString`, DictObserver.cpp:8-23. -/
def extractKeyVar (name : String) : Except Err (String × String) := do
  let s := name.toList
  let kS := findFirst s '('
  let kE := findLast s ')'
  if kS = npos ∧ kE = npos then return (name, "")
  else do
    let first ← substr s (add64 kS 1) (sub64 (sub64 kE kS) 1)
    let second ← substr s 0 kS
    return (String.ofList first, String.ofList second)

/-- The tokens of the texts written by DictObserver: `str` is a key between double quotes,
`num` a number, `squoted` a text between single quotes. -/
inductive Tok (N : Type) where
  | lbrace | rbrace | colon | comma
  | str (s : String)
  | num (x : N)
  | squoted (s : List Char)
deriving DecidableEq

/-- Data members of `DictObserver`, DictObserver.hpp:34-39, and the lines already sent by
JsonObserver / WebSocketObserver. -/
structure Dict (N : Type) where
  ss : List (Tok N)
  grid : List (Tok N)
  map1 : StdMap String N
  map2 : StdMap String (StdMap String N)
  comma : Bool
  sent : List (List (Tok N))

/-- DictObserver.cpp:25-28. -/
def Dict.init {N : Type} : Dict N := { ss := [], grid := [], map1 := [], map2 := [], comma := false, sent := [] }

/-- The serializer of a scalar, DictObserver.cpp:34-51.  Simplification: the exception
`extractKeyVarFromString` could raise (it never does, `extractKeyVar_total`) is not
propagated. -/
def Dict.put {N : Type} (d : Dict N) (x : N) (name : String) : Dict N :=
  match extractKeyVar name with
  | .error _ => d
  | .ok (first, second) =>
    if first ≠ "" then
      if second = "" then { d with map1 := d.map1.set first x }
      else { d with map2 := d.map2.set first (((d.map2.find first).getD []).set second x) }
    else d

/-- `SurfaceElevationGrid` (environment_models/inc/SurfaceElevationGrid.hpp): abscissae,
ordinates and the base91 text of the elevations (`n` of them).  `num` converts sizes. -/
structure Grid (N : Type) where
  x : List N
  y : List N
  n : Nat
  z : List Char

/-- The serializer of a grid, DictObserver.cpp:58-77 (a grid with `n > 0` has `nx, ny > 0`). -/
def Dict.putGrid {N : Type} (ofNat : Nat → N) (d : Dict N) (g : Grid N) : Dict N :=
  { d with grid :=
      if g.n > 0 then
        [.str "waves", .colon, .lbrace, .str "nx", .colon, .num (ofNat g.x.length), .comma,
         .str "ny", .colon, .num (ofNat g.y.length)] ++
        (match g.x.head?, g.x.getLast?, g.y.head?, g.y.getLast? with
         | some xmin, some xmax, some ymin, some ymax =>
           [.comma, .str "xmin", .colon, .num xmin, .comma, .str "xmax", .colon, .num xmax,
            .comma, .str "ymin", .colon, .num ymin, .comma, .str "ymax", .colon, .num ymax]
         | _, _, _, _ => []) ++
        [.comma, .str "z", .colon, .squoted g.z, .rbrace]
      else [] }

/-- Loop of `flushMap`, DictObserver.cpp:91-96. -/
def flushLoop {N : Type} (n : Nat) : List (String × N) → Nat → List (Tok N)
  | [], _ => []
  | (k, v) :: m, i => [.str k, .colon, .num v] ++ (if i < n - 1 then [.comma] else []) ++ flushLoop n m (i + 1)

/-- `flushMap`, DictObserver.cpp:84-98. -/
def flushMap {N : Type} (m : StdMap String N) (addBraces : Bool) : List (Tok N) :=
  if m.length = 0 then []
  else (if addBraces then [.lbrace] else []) ++ flushLoop m.length m 0 ++ (if addBraces then [.rbrace] else [])

/-- `object.first.find(',')==npos`: the key is not the one of a wrench. -/
def isAttitude {α : Type} (p : String × α) : Bool := !(p.1.toList.contains ',')

/-- Loops of DictObserver.cpp:127-134 and 158-165: `sel` selects the objects, `n` is their
number and `i` the counter of the objects already written. -/
def objLoop {N : Type} (sel : String × StdMap String N → Bool) (n : Nat) :
    StdMap String (StdMap String N) → Nat → List (Tok N)
  | [], _ => []
  | o :: m, i =>
    if sel o then
      [.str o.1, .colon] ++ flushMap o.2 true ++ (if i < n - 1 then [.comma] else []) ++ objLoop sel n m (i + 1)
    else objLoop sel n m i

/-- `serializeDictMap2Attitudes`, DictObserver.cpp:114-136. -/
def attitudes {N : Type} (m : StdMap String (StdMap String N)) : List (Tok N) :=
  let n := (m.filter isAttitude).length
  [.str "states", .colon, .lbrace] ++ objLoop isAttitude n m 0 ++ [.rbrace]

/-- `serializeDictMap2Wrenches`, DictObserver.cpp:138-168. -/
def wrenches {N : Type} (m : StdMap String (StdMap String N)) : List (Tok N) :=
  let nAttitudes := (m.filter isAttitude).length
  let nWrenches := (m.filter (fun o => !isAttitude o)).length
  if nWrenches > 0 then
    (if nAttitudes > 0 then [.comma] else []) ++ [.str "wrenches", .colon, .lbrace] ++
      objLoop (fun o => !isAttitude o) nWrenches m 0 ++ [.rbrace]
  else []

/-- `serializeDictMap1`, DictObserver.cpp:106-112. -/
def Dict.serialize1 {N : Type} (d : Dict N) : Dict N :=
  if d.map1.length = 0 then d
  else { d with ss := d.ss ++ flushMap d.map1 false, comma := true }

/-- `serializeDictMap2`, DictObserver.cpp:170-177. -/
def Dict.serialize2 {N : Type} (d : Dict N) : Dict N :=
  if d.map2 = [] then d
  else { d with ss := d.ss ++ (if d.comma then [.comma] else []) ++ attitudes d.map2 ++ wrenches d.map2, comma := true }

/-- `serializeDictSurfaceElevationGrid`, DictObserver.cpp:179-185. -/
def Dict.serializeGrid {N : Type} (d : Dict N) : Dict N :=
  if d.grid = [] then d
  else { d with ss := d.ss ++ (if d.comma then [.comma] else []) ++ d.grid, comma := true }

/-- `DictObserver::flush_after_write`, DictObserver.cpp:187-194. -/
def Dict.flush {N : Type} (d : Dict N) : Dict N :=
  let d := { d with ss := d.ss ++ [Tok.lbrace] }
  let d := d.serialize1.serialize2.serializeGrid
  { d with ss := d.ss ++ [Tok.rbrace] }

/-- `JsonObserver::flush_after_write`, JsonObserver.cpp:18-23, and
`WebSocketObserver::flush_after_write`, WebSocketObserver.cpp:17-22: a line (a message) is
sent. -/
def Dict.flushAndSend {N : Type} (d : Dict N) : Dict N :=
  let d := d.flush
  { d with sent := d.sent ++ [d.ss], ss := [] }

/-- JsonObserver and WebSocketObserver. -/
def json {N : Type} (ofNat : Nat → N) : Impl (Dict N) (Val N (Grid N)) where
  serializer v name d :=
    match v with
    | .num x => d.put x name
    | .grid g => d.putGrid ofNat g
  initializer _ _ d := d
  flushAfterInitialization d := d
  beforeWrite d := d
  flushAfterWrite d := d.flushAndSend
  flushValueDuringWrite d := d
  flushValueDuringInitialization d := d

end Xdyn.Obs
