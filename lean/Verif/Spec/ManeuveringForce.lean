/-
Specification of the force of a maneuvering model, independent of the way it is computed: what the value of a name and of an
expression is, when names are defined by other expressions.
-/
import Verif.Spec.Maneuvering

namespace Xdyn.Maneuvering.Spec
open Xdyn.Maneuvering

/-- what can be evaluated: an expression, or a name -/
inductive Query where
  | expr (e : E)
  | name (n : Text)

/-- The value of an expression or of a name, at date `t`, in the states `state`.
`given n v`: the name `n` is a command or a constant with value `v`. `defs n s`: the text `s` follows the key `n` in the input
file. -/
inductive Means {D : Type} (A : Arith D) (given : Text → D → Prop) (defs : Text → Text → Prop) (t : D)
    (state : StateType → D → Except String D) : Query → D → Prop
  | num (l : Text) : Means A given defs t state (.expr (.num l)) (A.lit l)
  | time : Means A given defs t state (.expr (.name ['t'])) t
  | name (n : Text) (v : D) : n ≠ ['t'] → Means A given defs t state (.name n) v → Means A given defs t state (.expr (.name n)) v
  | fn (f : Text) (g : Fn) (a : E) (v : D) : callees.lookup (String.ofList f) = some (.fn g) → Means A given defs t state (.expr a) v →
      Means A given defs t state (.expr (.call f a)) (A.fn g v)
  | state (f : Text) (s : StateType) (a : E) (v w : D) : callees.lookup (String.ofList f) = some (.state s) →
      Means A given defs t state (.expr a) v → state s (A.sub t v) = .ok w → Means A given defs t state (.expr (.call f a)) w
  /-- `f(n)` where `f` is not a function: the command `n` of the force model `f` -/
  | command (f n : Text) (v : D) : callees.lookup (String.ofList f) = none →
      Means A given defs t state (.name (f ++ "(".toList ++ n ++ ")".toList)) v → Means A given defs t state (.expr (.call f (.name n))) v
  | add (a b : E) (v w : D) : Means A given defs t state (.expr a) v → Means A given defs t state (.expr b) w →
      Means A given defs t state (.expr (.add a b)) (A.add v w)
  | sub (a b : E) (v w : D) : Means A given defs t state (.expr a) v → Means A given defs t state (.expr b) w →
      Means A given defs t state (.expr (.sub a b)) (A.sub v w)
  | mul (a b : E) (v w : D) : Means A given defs t state (.expr a) v → Means A given defs t state (.expr b) w →
      Means A given defs t state (.expr (.mul a b)) (A.mul v w)
  | div (a b : E) (v w : D) : Means A given defs t state (.expr a) v → Means A given defs t state (.expr b) w →
      Means A given defs t state (.expr (.div a b)) (A.div v w)
  | pow (a b : E) (v w : D) : Means A given defs t state (.expr a) v → Means A given defs t state (.expr b) w →
      Means A given defs t state (.expr (.pow a b)) (A.pow v w)
  | given (n : Text) (v : D) : given n v → Means A given defs t state (.name n) v
  | defined (n s b : Text) (e : E) (v : D) : defs n (s ++ b) → Writes .sum s e → Blanks b → Means A given defs t state (.expr e) v →
      Means A given defs t state (.name n) v

/-- the only calls of something that is not a function have a single name as argument -/
def E.Plain : E → Prop
  | .num _ => True
  | .name _ => True
  | .call f a => E.Plain a ∧ (callees.lookup (String.ofList f) = none → ∃ n, a = .name n)
  | .add a b => E.Plain a ∧ E.Plain b
  | .sub a b => E.Plain a ∧ E.Plain b
  | .mul a b => E.Plain a ∧ E.Plain b
  | .div a b => E.Plain a ∧ E.Plain b
  | .pow a b => E.Plain a ∧ E.Plain b

/-- the names an expression refers to -/
def E.names : E → List Text
  | .num _ => []
  | .name n => if n = ['t'] then [] else [n]
  | .call f a =>
    match callees.lookup (String.ofList f), a with
    | none, .name n => [f ++ "(".toList ++ n ++ ")".toList]
    | _, _ => E.names a
  | .add a b => E.names a ++ E.names b
  | .sub a b => E.names a ++ E.names b
  | .mul a b => E.names a ++ E.names b
  | .div a b => E.names a ++ E.names b
  | .pow a b => E.names a ++ E.names b

/-- The text is a well written expression, perhaps followed by blanks, which refers only to names of `used`. -/
def WellWritten (used : Text → Prop) (s : Text) : Prop :=
  ∃ s' b e, s = s' ++ b ∧ Writes .sum s' e ∧ Blanks b ∧ e.Plain ∧ ∀ n ∈ e.names, used n

end Xdyn.Maneuvering.Spec
