import Verif.Model.State
import Mathlib.Data.Matrix.Mul
import Mathlib.LinearAlgebra.Matrix.Notation

/-
Model of core/src/BlockedDOF.cpp (forced degrees of freedom) and of
external_data_structures/inc/YamlBody.hpp:19-48.

Parameters (external code): `readCsv` is SSC's CSV reader (file name ↦ columns by title),
`mkInterp` is the construction of SSC's interpolators, which may throw; an interpolator is
represented by its two methods `f` (value) and `df` (derivative), which may throw too.
-/

namespace Xdyn.Blocked

variable {K : Type} [Field K] [LinearOrder K] [IsStrictOrderedRing K]

/-- `enum class BlockableState`, YamlBody.hpp:20. -/
inductive BlockableState where
  | U | V | W | P | Q | R
deriving DecidableEq, Repr

/-- `enum class InterpolationType`, YamlBody.hpp:19. -/
inductive InterpolationType where
  | piecewiseConstant | linear | spline
deriving DecidableEq, Repr

/-- `YamlDOF<std::vector<double> >` = `Table`, YamlBody.hpp:22-35, BlockedDOF.cpp:20. -/
structure Table (K : Type) where
  state : BlockableState
  t : List K
  value : List K
  interpolation : InterpolationType
deriving DecidableEq

/-- `YamlCSVDOF`, YamlBody.hpp:37-41: `t` and `value` are column titles. -/
structure CsvDof where
  state : BlockableState
  t : String
  value : String
  interpolation : InterpolationType
  filename : String
deriving DecidableEq

/-- `YamlBlockedDOF`, YamlBody.hpp:43-48. -/
structure Input (K : Type) where
  fromYaml : List (Table K)
  fromCsv : List CsvDof
deriving DecidableEq

/-- The methods `f` and `df` of `ssc::interpolation::Interpolator`. -/
structure Interp (K : Type) where
  f : K → Except Err K
  df : K → Except Err K

/-- `YamlDOF()`, YamlBody.hpp:24-29: the default state is `U`. -/
def Table.default : Table K :=
  { state := .U, t := [], value := [], interpolation := .piecewiseConstant }

/-- `Builder::read_table_from_csv`, BlockedDOF.cpp:159-190.  The member `state` of the table
is not assigned. -/
def readTableFromCsv (readCsv : String → Except Err (String → Option (List K))) (y : CsvDof) :
    Except Err (Table K) :=
  match readCsv y.filename with
  | .error _ => .error (.throw "InvalidInputException")
  | .ok m =>
    match m y.t with
    | none => .error (.throw "InvalidInputException")
    | some t =>
      match m y.value with
      | none => .error (.throw "InvalidInputException")
      | some v => .ok { (Table.default : Table K) with interpolation := y.interpolation, t := t, value := v }

/-- `Builder::build_tables`, BlockedDOF.cpp:61-69. -/
def buildTables (readCsv : String → Except Err (String → Option (List K))) (input : Input K) :
    Except Err (List (Table K)) := do
  let l ← input.fromCsv.mapM (readTableFromCsv readCsv)
  return input.fromYaml ++ l

/-- `Builder::throw_if_already_defined`, BlockedDOF.cpp:106-113. -/
def throwIfAlreadyDefined (s : BlockableState) (defined : BlockableState → Bool) :
    Except Err (BlockableState → Bool) :=
  if defined s then .error (.throw "InvalidInputException")
  else .ok (fun s' => if s' = s then true else defined s')

/-- `Builder::check_states_are_not_defined_twice`, BlockedDOF.cpp:115-127. -/
def checkNotDefinedTwice (input : Input K) : Except Err Unit := do
  let definedInYaml ← input.fromYaml.foldlM (fun d y => throwIfAlreadyDefined y.state d) (fun _ => false)
  let _ ← input.fromCsv.foldlM (fun (d : (BlockableState → Bool) × (BlockableState → Bool)) y => do
    let d1 ← throwIfAlreadyDefined y.state d.1
    let d2 ← throwIfAlreadyDefined y.state d.2
    return (d1, d2)) (definedInYaml, fun _ => false)
  return ()

/-- `ret[table.state] = v` for a `std::map` of keys `BlockableState`. -/
def mapSet {α : Type} (m : BlockableState → Option α) (s : BlockableState) (v : α) :
    BlockableState → Option α :=
  fun s' => if s' = s then some v else m s'

/-- `Builder::get_forced_states`, BlockedDOF.cpp:71-79; `build_interpolator` (128-157) turns
any exception into an `InvalidInputException`. -/
def getForcedStates (mkInterp : Table K → Except Err (Interp K)) (tables : List (Table K)) :
    Except Err (BlockableState → Option (Interp K)) :=
  tables.foldlM (fun m table =>
    match mkInterp table with
    | .ok i => .ok (mapSet m table.state i)
    | .error _ => .error (.throw "InvalidInputException")) (fun _ => none)

/-- `*std::min_element(begin, end)`; dereferencing `end()` is undefined behaviour. -/
def minElement (l : List K) : Except Err K :=
  match l with
  | [] => .error .ub
  | a :: l => .ok (l.foldl (fun m b => if b < m then b else m) a)

/-- `*std::max_element(begin, end)`. -/
def maxElement (l : List K) : Except Err K :=
  match l with
  | [] => .error .ub
  | a :: l => .ok (l.foldl (fun m b => if m < b then b else m) a)

/-- `Builder::get_tmin`, BlockedDOF.cpp:81-90. -/
def getTmin (tables : List (Table K)) : Except Err (BlockableState → Option K) :=
  tables.foldlM (fun m table => do return mapSet m table.state (← minElement table.t)) (fun _ => none)

/-- `Builder::get_tmax`, BlockedDOF.cpp:92-101. -/
def getTmax (tables : List (Table K)) : Except Err (BlockableState → Option K) :=
  tables.foldlM (fun m table => do return mapSet m table.state (← maxElement table.t)) (fun _ => none)

/-- `BlockedDOF::Impl`, BlockedDOF.cpp:196-208. -/
structure BlockedDof (K : Type) where
  dof : BlockableState → Option (Interp K)
  bodyIdx : Nat
  tmin : BlockableState → Option K
  tmax : BlockableState → Option K

/-- `BlockedDOF::BlockedDOF(YamlBlockedDOF, body_idx)`, BlockedDOF.cpp:255-257, 56-59, 198-203. -/
def build (readCsv : String → Except Err (String → Option (List K)))
    (mkInterp : Table K → Except Err (Interp K)) (input : Input K) (bodyIdx : Nat) :
    Except Err (BlockedDof K) := do
  let tables ← buildTables readCsv input
  checkNotDefinedTwice input
  let dof ← getForcedStates mkInterp tables
  let tmin ← getTmin tables
  let tmax ← getTmax tables
  return { dof, bodyIdx, tmin, tmax }

/-- `state_is_blocked_at_that_date`, BlockedDOF.cpp:210-221. -/
def isBlockedAt (b : BlockedDof K) (s : BlockableState) (t : K) : Bool :=
  match b.tmin s, b.tmax s with
  | some mn, some mx => decide (mn ≤ t) && decide (t ≤ mx)
  | _, _ => false

/-- `state_index`, BlockedDOF.cpp:223-249. -/
def stateIndex (bodyIdx : Nat) : BlockableState → Nat
  | .U => UIDX bodyIdx
  | .V => VIDX bodyIdx
  | .W => WIDX bodyIdx
  | .P => PIDX bodyIdx
  | .Q => QIDX bodyIdx
  | .R => RIDX bodyIdx

/-- Order of the keys of a `std::map<BlockableState, _>`. -/
def allStates : List BlockableState := [.U, .V, .W, .P, .Q, .R]

/-- One iteration of the loop of `force_states` (BlockedDOF.cpp:267-281) or, with `df` instead
of `f`, of the one of `force_state_derivatives` (289-303). -/
def forceOne (g : Interp K → K → Except Err K) (b : BlockedDof K) (t : K) (x : List K)
    (s : BlockableState) : Except Err (List K) :=
  match b.dof s with
  | none => .ok x
  | some i =>
    if isBlockedAt b s t then
      match g i t with
      | .error .ub => .error .ub
      | .error (.throw _) => .error (.throw "NumericalErrorException")
      | .ok v => setUB x (stateIndex b.bodyIdx s) v
    else .ok x

/-- `BlockedDOF::force_states`, BlockedDOF.cpp:263-283. -/
def forceStates (b : BlockedDof K) (x : List K) (t : K) : Except Err (List K) :=
  allStates.foldlM (forceOne Interp.f b t) x

/-- `BlockedDOF::force_state_derivatives`, BlockedDOF.cpp:285-305. -/
def forceStateDerivatives (b : BlockedDof K) (dx : List K) (t : K) : Except Err (List K) :=
  allStates.foldlM (forceOne Interp.df b t) dx

/-- `BlockedDOF::get_delta_F`, BlockedDOF.cpp:307-327: `total_inertia*dx_dt - F` unless no
state is blocked. -/
def getDeltaF (b : BlockedDof K) (dx : List K) (M : Matrix (Fin 6) (Fin 6) K) (F : Fin 6 → K) :
    Except Err (Fin 6 → K) :=
  if allStates.all (fun s => (b.dof s).isNone) then .ok (fun _ => 0)
  else do
    let d0 ← getAt dx (UIDX b.bodyIdx)
    let d1 ← getAt dx (VIDX b.bodyIdx)
    let d2 ← getAt dx (WIDX b.bodyIdx)
    let d3 ← getAt dx (PIDX b.bodyIdx)
    let d4 ← getAt dx (QIDX b.bodyIdx)
    let d5 ← getAt dx (RIDX b.bodyIdx)
    return M.mulVec ![d0, d1, d2, d3, d4, d5] - F

end Xdyn.Blocked
