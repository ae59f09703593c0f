import Verif.Model.Observer
import Mathlib.Data.List.SplitOn

/-
Specification of the outputs, independent of the way the observers are implemented.
-/

namespace Xdyn.Obs

variable {σ ν : Type}

/-- Value given by the last of the `writes` that bears the name `v`. -/
def latest (writes : List (String × ν)) (v : String) : Option ν :=
  (writes.reverse.find? (fun p => p.1 = v)).map Prod.snd

/-- Everything written for one observation. -/
def writesOf (o : ν × List (String × ν)) : List (String × ν) := ("t", o.1) :: o.2

/-- Successive actions. -/
def perform (as : List (σ → σ)) (s : σ) : σ := as.foldl (fun s a => a s) s

/-- What must be done for one line: one action per requested variable, in order, with `sep`
between them; `none` when one of the variables has no value. -/
def lineOf (writes : List (String × ν)) (req : List String) (f : ν → String → σ → σ) (sep : σ → σ) :
    Option (List (σ → σ)) :=
  (req.mapM (fun v => (latest writes v).map (fun x => f x v))).map (List.intersperse sep)

/-- The lines of the values, `past` being what was written before. -/
def expectedLines (I : Impl σ ν) (req : List String) : List (String × ν) → List (ν × List (String × ν)) → Option (List (σ → σ))
  | _, [] => some []
  | past, o :: l => do
    let line ← lineOf (past ++ writesOf o) req I.serializer I.flushValueDuringWrite
    let rest ← expectedLines I req (past ++ writesOf o) l
    return [I.beforeWrite] ++ line ++ [I.flushAfterWrite] ++ rest

/-- The title line, then the lines of the values. -/
def expectedRun (I : Impl σ ν) (req : List String) : List (ν × List (String × ν)) → Option (List (σ → σ))
  | [] => some []
  | o :: l => do
    let title ← lineOf (writesOf o) req I.initializer I.flushValueDuringInitialization
    let lines ← expectedLines I req [] (o :: l)
    return title ++ [I.flushAfterInitialization] ++ lines

/-! ### JSON -/

mutual
/-- JSON objects and numbers. -/
inductive Json (N : Type) where
  | num (x : N)
  | obj (m : Members N)
/-- The members of a JSON object. -/
inductive Members (N : Type) where
  | nil
  | cons (k : String) (v : Json N) (m : Members N)
end

mutual
/-- Text of a JSON value (as a list of tokens). -/
def Json.toks {N : Type} : Json N → List (Tok N)
  | .num x => [.num x]
  | .obj m => [.lbrace] ++ m.toks ++ [.rbrace]
/-- Text of the members of a JSON object: `"k": value` separated by commas. -/
def Members.toks {N : Type} : Members N → List (Tok N)
  | .nil => []
  | .cons k v .nil => [.str k, .colon] ++ v.toks
  | .cons k v (.cons k' v' m) => [.str k, .colon] ++ v.toks ++ [.comma] ++ (Members.cons k' v' m).toks
end

/-- Members given by a list. -/
def Members.ofList {N : Type} : List (String × Json N) → Members N
  | [] => .nil
  | (k, v) :: l => .cons k v (ofList l)

/-- A line is well formed when it is the text of some JSON value. -/
def WellFormed {N : Type} (line : List (Tok N)) : Prop := ∃ j : Json N, line = j.toks

/-- The names of variables used by xdyn: a plain name (without parenthesis), stored under
`(name, "")`, or `var(key)`, stored under `(key, var)`. -/
inductive NameOf : String → String → String → Prop where
  | plain (s : String) (h0 : s ≠ "") (h1 : '(' ∉ s.toList) (h2 : ')' ∉ s.toList) : NameOf s s ""
  | paren (var key : String) (h0 : var ≠ "") (h1 : '(' ∉ var.toList) (h2 : key ≠ "") :
      NameOf (var ++ "(" ++ key ++ ")") key var

/-- Value stored under a key (and possibly a variable) in the dictionaries. -/
def Dict.lookup {N : Type} (d : Dict N) (key var : String) : Option N :=
  if var = "" then d.map1.find key else (d.map2.find key).bind (fun m => m.find var)

/-- A flat JSON object. -/
def flatObj {N : Type} (m : StdMap String N) : Json N := .obj (.ofList (m.map (fun p => (p.1, .num p.2))))

/-- The JSON object a line should hold: plain variables, then states (keys without comma) and
wrenches (keys with a comma). -/
def expectedJson {N : Type} (map1 : StdMap String N) (map2 : StdMap String (StdMap String N)) : Json N :=
  .obj (.ofList
    (map1.map (fun p => (p.1, .num p.2)) ++
     (if map2 = [] then [] else
       [("states", .obj (.ofList ((map2.filter isAttitude).map (fun p => (p.1, flatObj p.2)))))]) ++
     (if map2.filter (fun o => !isAttitude o) = [] then [] else
       [("wrenches", .obj (.ofList ((map2.filter (fun o => !isAttitude o)).map (fun p => (p.1, flatObj p.2)))))])))

end Xdyn.Obs
