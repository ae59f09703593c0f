/-
Model of the evaluation of a maneuvering force model: constructor and get_force of
code/force_models/src/ManeuveringForceModel.cpp, code/force_models/src/maneuvering_DataSource_builder.cpp.

Simplifications. SSC's data source is not part of the repository: it is modelled as the signals that were set (the last value
of a name) and the modules, which are evaluated when the signal they compute is asked for. All the modules read the signals
"states" and "t" (maneuvering_DataSource_builder.cpp:38-39), which are set at each call of get_force, so that none of the values
they computed for the previous call is still valid: there is no memory between two calls. What the data source does with a
signal that is both set and computed by a module is not modelled (the theorems exclude it). Evaluation of a signal that depends
on itself never ends: the first argument of `signal` bounds the number of nested evaluations, and the theorems say
"for some bound".
-/
import Mathlib.Data.Fin.VecNotation
import Verif.Model.Maneuvering

namespace Xdyn.Maneuvering

variable {D : Type}

/-- The constants of the environment given to the expressions, ManeuveringForceModel.cpp:80-82 -/
structure Constants (D : Type) where
  g : D
  nu : D
  rho : D

/-- The expressions of the model, compiled one by one, ManeuveringForceModel.cpp:76-79 -/
def compileAll (fmt : Text → Text) (exprs : List (Text × Text)) : List (Text × Node) :=
  exprs.map (fun p => (p.1, compile fmt p.2))

/-- The signals that are set: g, nu, rho (ManeuveringForceModel.cpp:80-82), then t and the commands (:90-91). The last one
set is the first of the list. ("states" is not a number.) -/
def setSignals (c : Constants D) (t : D) (commands : List (Text × D)) : List (Text × D) :=
  commands.reverse ++ [("t".toList, t), ("rho".toList, c.rho), ("nu".toList, c.nu), ("g".toList, c.g)]

/-- `ds->get<double>(name)`: a signal that was set, or the output of the module of that name, computed by Module::update,
maneuvering_DataSource_builder.cpp:36-43 -/
def signal (A : Arith D) (nodes : List (Text × Node)) (set : List (Text × D)) (t : D) (state : StateType → D → Except String D) :
    Nat → Text → Except String D
  | 0, _ => .error "too many nested evaluations"
  | k + 1, name =>
    match set.lookup name with
    | some v => .ok v
    | none =>
      match nodes.lookup name with
      | none => .error "no such signal"
      | some n => n.eval A ⟨t, state, signal A nodes set t state k⟩

/-- ManeuveringForceModel::get_force, ManeuveringForceModel.cpp:86-102 -/
def getForce (A : Arith D) (nodes : List (Text × Node)) (c : Constants D) (k : Nat) (state : StateType → D → Except String D) (t : D)
    (commands : List (Text × D)) : Except String (Fin 6 → D) := do
  let get := signal A nodes (setSignals c t commands) t state k
  let x ← get "X".toList
  let y ← get "Y".toList
  let z ← get "Z".toList
  let kk ← get "K".toList
  let m ← get "M".toList
  let n ← get "N".toList
  .ok ![x, y, z, kk, m, n]

end Xdyn.Maneuvering
