/-
Specification of the maneuvering expressions, independent of the parser: what an arithmetic
expression is, how it is written, and what it is worth.
-/
import Verif.Model.Maneuvering

namespace Xdyn.Maneuvering.Spec
open Xdyn.Maneuvering

/-- an arithmetic expression -/
inductive E where
  | num (literal : Text)
  | name (n : Text)
  | call (f : Text) (arg : E)
  | add (a b : E)
  | sub (a b : E)
  | mul (a b : E)
  | div (a b : E)
  | pow (a b : E)
deriving DecidableEq

/-- only spaces and tabs -/
def Blanks (s : Text) : Prop := ∀ c ∈ s, c = ' ' ∨ c = '\t'

/-- only decimal digits -/
def Digits (s : Text) : Prop := ∀ c ∈ s, c.isDigit = true

/-- an optional sign -/
def Sign (s : Text) : Prop := s = [] ∨ s = ['+'] ∨ s = ['-']

/-- digits, with perhaps a dot somewhere, and at least one digit -/
inductive Mantissa : Text → Prop
  | int (n : Text) : Digits n → n ≠ [] → Mantissa n
  | dec (n f : Text) : Digits n → Digits f → n ++ f ≠ [] → Mantissa (n ++ '.' :: f)

/-- an optional power of ten -/
inductive Exponent : Text → Prop
  | none : Exponent []
  | some (c : Char) (sg n : Text) : c = 'e' ∨ c = 'E' → Sign sg → Digits n → n ≠ [] →
      Exponent (c :: (sg ++ n))

/-- the text of a number: optional sign, mantissa, optional power of ten -/
inductive Literal : Text → Prop
  | mk (sg m e : Text) : Sign sg → Mantissa m → Exponent e → Literal (sg ++ m ++ e)

/-- the text of an identifier: a letter, then letters, digits and underscores, in which blanks are
ignored -/
inductive Identifier : Text → Text → Prop
  | mk (c : Char) (s : Text) : c.isAlpha = true →
      (∀ x ∈ s, x.isAlphanum = true ∨ x = '_' ∨ x = ' ' ∨ x = '\t') →
      Identifier (c :: s) (c :: s.filter (fun x => !(x == ' ' || x == '\t')))

inductive Level where
  | sum | product | power | base

/-- The textbook grammar of arithmetic expressions: sums of products of powers, every operator
associating to the left, parentheses and function calls; blanks are allowed before every symbol. -/
inductive Writes : Level → Text → E → Prop
  | product {s e} : Writes .product s e → Writes .sum s e
  | add {s a b s' e} : Writes .sum s a → Blanks b → Writes .product s' e →
      Writes .sum (s ++ b ++ '+' :: s') (.add a e)
  | sub {s a b s' e} : Writes .sum s a → Blanks b → Writes .product s' e →
      Writes .sum (s ++ b ++ '-' :: s') (.sub a e)
  | power {s e} : Writes .power s e → Writes .product s e
  | mul {s a b s' e} : Writes .product s a → Blanks b → Writes .power s' e →
      Writes .product (s ++ b ++ '*' :: s') (.mul a e)
  | div {s a b s' e} : Writes .product s a → Blanks b → Writes .power s' e →
      Writes .product (s ++ b ++ '/' :: s') (.div a e)
  | base {s e} : Writes .base s e → Writes .power s e
  | pow {s a b s' e} : Writes .power s a → Blanks b → Writes .base s' e →
      Writes .power (s ++ b ++ '^' :: s') (.pow a e)
  | paren {b s e b'} : Blanks b → Writes .sum s e → Blanks b' →
      Writes .base (b ++ '(' :: (s ++ b' ++ [')'])) e
  | num {b l} : Blanks b → Literal l → Writes .base (b ++ l) (.num l)
  | name {b s n} : Blanks b → Identifier s n → Writes .base (b ++ s) (.name n)
  | call {b s f b' s' e b''} : Blanks b → Identifier s f → Blanks b' → Writes .sum s' e →
      Blanks b'' → Writes .base (b ++ s ++ b' ++ '(' :: (s' ++ b'' ++ [')'])) (.call f e)

/-- the functions and states that can be called in an expression -/
inductive Callee where
  | fn (f : Fn)
  | state (s : StateType)

/-- the documented names -/
def callees : List (String × Callee) :=
  [("cos", .fn .cos), ("sin", .fn .sin), ("exp", .fn .exp), ("abs", .fn .abs), ("log", .fn .log),
   ("sqrt", .fn .sqrt), ("x", .state .X), ("y", .state .Y), ("z", .state .Z), ("u", .state .U),
   ("v", .state .V), ("w", .state .W), ("p", .state .P), ("q", .state .Q), ("r", .state .R),
   ("phi", .state .PHI), ("theta", .state .THETA), ("psi", .state .PSI), ("qr", .state .QR),
   ("qi", .state .QI), ("qj", .state .QJ), ("qk", .state .QK)]

/-- the value of an expression: `none` if it calls something that is not in the list -/
def E.value {D : Type} (A : Arith D) (env : Env D) : E → Option (Except String D)
  | .num l => some (.ok (A.lit l))
  | .name n => some (if n = ['t'] then .ok env.t else env.ds n)
  | .call f a =>
    match callees.lookup (String.ofList f) with
    | none => none
    | some (.fn g) => (E.value A env a).map fun r => do return A.fn g (← r)
    | some (.state s) => (E.value A env a).map fun r => do env.state s (A.sub env.t (← r))
  | .add a b => lift2 A.add (E.value A env a) (E.value A env b)
  | .sub a b => lift2 A.sub (E.value A env a) (E.value A env b)
  | .mul a b => lift2 A.mul (E.value A env a) (E.value A env b)
  | .div a b => lift2 A.div (E.value A env a) (E.value A env b)
  | .pow a b => lift2 A.pow (E.value A env a) (E.value A env b)
where
  /-- both operands, the left one first -/
  lift2 (f : D → D → D) : Option (Except String D) → Option (Except String D) →
      Option (Except String D)
    | some x, some y => some (do return f (← x) (← y))
    | _, _ => none

end Xdyn.Maneuvering.Spec
