/-
Model of the maneuvering expressions: the grammar (code/force_models/inc/maneuvering_grammar.hpp),
the compiler (code/force_models/src/maneuvering_compiler.cpp), the nodes it builds
(code/force_models/inc/ManeuveringInternal.hpp, src/ManeuveringInternal.cpp) and the force model
that uses them (src/ManeuveringForceModel.cpp).

Simplifications. boost::spirit::qi is a parsing expression grammar: ordered choice, greedy `*`, and
a skipper (blanks) run before every primitive parser; that is what is written here, on lists of
characters. The attribute of a failed alternative is discarded (qi parses variants and container
elements in a local value). The value of a numeric literal is not computed: the literal is kept as
text, and `Arith.lit` below is any conversion. The special literals `-inf`, `+inf`, `-nan`, `+nan`
of `qi::double_` are not modelled.
-/
import Verif.Model.Common

namespace Xdyn.Maneuvering

abbrev Text := List Char

/-- boost::spirit::ascii::blank (maneuvering_grammar.hpp:17): space or tab -/
def isBlank (c : Char) : Bool := c == ' ' || c == '\t'

/-- qi::skip_over with the `blank` skipper -/
def skip (s : Text) : Text := s.dropWhile isBlank

/-- alnum | '_', maneuvering_grammar.hpp:136 -/
def isIdentChar (c : Char) : Bool := c.isAlphanum || c == '_'

/-! ### Abstract syntax tree, maneuvering_grammar.hpp:19-78 -/

mutual
/-- Atom = Nil | double | Identifier | FunctionCall, maneuvering_grammar.hpp:27-33, 74-78. The
alternative `Nil` is only the value of an attribute that was never assigned: see `compile`. -/
inductive Atom where
  | num (l : Text)
  | ident (n : Text)
  | call (f : Text) (e : Expr)
/-- Base = Nil | Expr | Atom, maneuvering_grammar.hpp:37-42 (same remark on `Nil`) -/
inductive Base where
  | paren (e : Expr)
  | atom (a : Atom)
/-- Factor, maneuvering_grammar.hpp:44-48 -/
inductive Factor where
  | mk (base : Base) (exponents : List Base)
/-- Term, maneuvering_grammar.hpp:50-60 -/
inductive Term where
  | mk (first : Factor) (rest : List (Char × Factor))
/-- Expr, maneuvering_grammar.hpp:62-72 -/
inductive Expr where
  | mk (first : Term) (rest : List (Char × Term))
end

/-! ### Grammar, maneuvering_grammar.hpp:119-137 -/

abbrev Parser (α : Type) := Text → Option (α × Text)

/-- a literal character, such as '(' in maneuvering_grammar.hpp:132 -/
def lit1 (c : Char) : Text → Option Text := fun s =>
  match skip s with
  | [] => none
  | c' :: r => if c' = c then some r else none

/-- add_operators, mul_operators and '^', maneuvering_grammar.hpp:126-127, 131 -/
def opP (ok : Char → Bool) : Parser Char := fun s =>
  match skip s with
  | [] => none
  | c :: r => if ok c then some (c, r) else none

def isAdd (c : Char) : Bool := c == '+' || c == '-'
def isMul (c : Char) : Bool := c == '*' || c == '/'
def isHat (c : Char) : Bool := c == '^'

/-- *p (Kleene star), with a number of turns that bounds the recursion -/
def star {α : Type} (p : Parser α) : Nat → Text → List α × Text
  | 0, s => ([], s)
  | n + 1, s =>
    match p s with
    | none => ([], s)
    | some (a, r) => (a :: (star p n r).1, (star p n r).2)

/-- operator >> operand, as in maneuvering_grammar.hpp:128-129, 131 -/
def opAnd {α : Type} (ok : Char → Bool) (p : Parser α) : Parser (Char × α) := fun s =>
  match opP ok s with
  | none => none
  | some (c, r) =>
    match p r with
    | none => none
    | some (x, r') => some ((c, x), r')

/-- the end of an identifier, *(alnum | char_('_')) with the skipper, maneuvering_grammar.hpp:136.
The rule is not a lexeme: blanks between the characters are skipped. -/
def identTail : Text → Text × Text
  | [] => ([], [])
  | c :: r =>
    if isBlank c then identTail r
    else if isIdentChar c then (c :: (identTail r).1, (identTail r).2)
    else ([], c :: r)

/-- identifier, maneuvering_grammar.hpp:136 -/
def identP : Parser Text := fun s =>
  match skip s with
  | [] => none
  | c :: r => if c.isAlpha then some (c :: (identTail r).1, (identTail r).2) else none

/-- optional sign -/
def signP : Text → Text × Text
  | [] => ([], [])
  | c :: r => if c = '+' ∨ c = '-' then ([c], r) else ([], c :: r)

/-- optional exponent of a literal: `e`, optional sign, at least one digit; otherwise nothing is
consumed (qi real_impl) -/
def expP : Text → Text × Text
  | [] => ([], [])
  | c :: r =>
    if c = 'e' ∨ c = 'E' then
      let s := signP r
      if (s.2.takeWhile Char.isDigit) = [] then ([], c :: r)
      else (c :: (s.1 ++ s.2.takeWhile Char.isDigit), s.2.dropWhile Char.isDigit)
    else ([], c :: r)

/-- digits, optional dot and digits (at least one digit in all) -/
def mantP (s : Text) : Option (Text × Text) :=
  let n := s.takeWhile Char.isDigit
  let r := s.dropWhile Char.isDigit
  match r with
  | [] => if n = [] then none else some (n, [])
  | c :: r' =>
    if c = '.' then
      let f := r'.takeWhile Char.isDigit
      if n = [] ∧ f = [] then none
      else some (n ++ '.' :: f, r'.dropWhile Char.isDigit)
    else if n = [] then none else some (n, c :: r')

/-- qi::double_ (maneuvering_grammar.hpp:134) after the skipper: splits the text of the literal
from what follows -/
def numLit (s : Text) : Option (Text × Text) :=
  let sg := signP s
  match mantP sg.2 with
  | none => none
  | some (m, r) => some (sg.1 ++ m ++ (expP r).1, (expP r).2)

/-- '(' >> expr >> ')', maneuvering_grammar.hpp:132, 135 -/
def parenP (e : Parser Expr) : Parser Expr := fun s =>
  match lit1 '(' s with
  | none => none
  | some r =>
    match e r with
    | none => none
    | some (x, r') =>
      match lit1 ')' r' with
      | none => none
      | some r'' => some (x, r'')

/-- function_call, maneuvering_grammar.hpp:135 -/
def callP (e : Parser Expr) : Parser Atom := fun s =>
  match identP s with
  | none => none
  | some (f, r) =>
    match parenP e r with
    | none => none
    | some (x, r') => some (.call f x, r')

/-- atom, maneuvering_grammar.hpp:134: the alternatives in that order -/
def atomP (e : Parser Expr) : Parser Atom := fun s =>
  match callP e s with
  | some x => some x
  | none =>
    match identP s with
    | some (n, r) => some (.ident n, r)
    | none =>
      match numLit (skip s) with
      | some (l, r) => some (.num l, r)
      | none => none

/-- base, exponent, maneuvering_grammar.hpp:132-133 -/
def baseP (e : Parser Expr) : Parser Base := fun s =>
  match parenP e s with
  | some (x, r) => some (.paren x, r)
  | none =>
    match atomP e s with
    | some (a, r) => some (.atom a, r)
    | none => none

/-- x >> *(operator x) -/
def chainP {α β : Type} (mk : α → List (Char × α) → β) (ok : Char → Bool) (p : Parser α) :
    Parser β := fun s =>
  match p s with
  | none => none
  | some (x, r) =>
    some (mk x (star (opAnd ok p) r.length r).1, (star (opAnd ok p) r.length r).2)

/-- factor, maneuvering_grammar.hpp:131 -/
def factorP (e : Parser Expr) : Parser Factor :=
  chainP (fun b l => .mk b (l.map Prod.snd)) isHat (baseP e)

/-- term, maneuvering_grammar.hpp:130 -/
def termP (e : Parser Expr) : Parser Term := chainP .mk isMul (factorP e)

/-- expr, maneuvering_grammar.hpp:125; the argument bounds the depth of parentheses -/
def exprP : Nat → Parser Expr
  | 0 => fun _ => none
  | d + 1 => chainP .mk isAdd (termP (exprP d))

/-- qi::phrase_parse(b, e, g.expr, blank, ast), maneuvering_compiler.cpp:169-172: there cannot be
more nested parentheses than characters. The position where the parser stopped is returned too. -/
def phraseParse (s : Text) : Option (Expr × Text) := exprP (s.length + 1) s

/-! ### Nodes -/

/-- unary functions, ManeuveringInternal.hpp:86-164 -/
inductive Fn where
  | cos | sin | exp | abs | log | sqrt
deriving DecidableEq

/-- StateType, ManeuveringInternal.hpp:196 -/
inductive StateType where
  | X | Y | Z | U | V | W | P | Q | R | QR | QI | QJ | QK | PHI | THETA | PSI
deriving DecidableEq

/-- Sum, Difference, Multiply, Divide, Pow, ManeuveringInternal.hpp:126-194 -/
inductive Op where
  | sum | difference | multiply | divide | pow
deriving DecidableEq

/-- Node and its subclasses, ManeuveringInternal.hpp:28-275; `nan` is `make_constant(std::nan(""))` -/
inductive Node where
  | nan
  | constant (l : Text)
  | time
  | unknown (name : Text)
  | fn (f : Fn) (operand : Node)
  | state (s : StateType) (operand : Node)
  | bin (o : Op) (lhs rhs : Node)
deriving DecidableEq

/-! ### PrettyPrinter, maneuvering_compiler.cpp:18-76 -/

section
variable (fmt : Text → Text)

mutual
/-- maneuvering_compiler.cpp:25-34, 68-75; `fmt` is the formatting of a double by operator<< -/
def printAtom : Atom → Text
  | .num l => fmt l
  | .ident n => n
  | .call f e => f ++ "(".toList ++ printExpr e ++ ")".toList
/-- maneuvering_compiler.cpp:35-38 -/
def printBase : Base → Text
  | .paren e => printExpr e
  | .atom a => printAtom a
/-- maneuvering_compiler.cpp:45 -/
def printExps : Text → List Base → Text
  | ret, [] => ret
  | ret, e :: l =>
    printExps ("(".toList ++ ret ++ ")^(".toList ++ printBase e ++ ")".toList) l
/-- maneuvering_compiler.cpp:39-47 -/
def printFactor : Factor → Text
  | .mk b l => printExps (printBase b) l
/-- maneuvering_compiler.cpp:51-55 -/
def printFactors : Text → List (Char × Factor) → Text
  | ret, [] => ret
  | ret, (c, f) :: l => printFactors (ret ++ [c] ++ "(".toList ++ printFactor f ++ ")".toList) l
/-- maneuvering_compiler.cpp:48-57 -/
def printTerm : Term → Text
  | .mk f l => printFactors (printFactor f) l
/-- maneuvering_compiler.cpp:61-65 -/
def printTerms : Text → List (Char × Term) → Text
  | ret, [] => ret
  | ret, (c, t) :: l => printTerms (ret ++ [c] ++ "(".toList ++ printTerm t ++ ")".toList) l
/-- maneuvering_compiler.cpp:58-67 -/
def printExpr : Expr → Text
  | .mk t l => printTerms (printTerm t) l
end

/-! ### Evaluator, maneuvering_compiler.cpp:78-165 -/

/-- the four tests on the operator, maneuvering_compiler.cpp:114-117, 127-130 -/
def applyOp (c : Char) (ret val : Node) : Node :=
  if c = '-' then .bin .difference ret val
  else if c = '+' then .bin .sum ret val
  else if c = '*' then .bin .multiply ret val
  else if c = '/' then .bin .divide ret val
  else ret

/-- maneuvering_compiler.cpp:140-145 -/
def fnOf (f : Text) : Option Fn :=
  if f = "cos".toList then some .cos
  else if f = "sin".toList then some .sin
  else if f = "exp".toList then some .exp
  else if f = "abs".toList then some .abs
  else if f = "log".toList then some .log
  else if f = "sqrt".toList then some .sqrt
  else none

/-- maneuvering_compiler.cpp:146-161 -/
def stateOf (f : Text) : Option StateType :=
  if f = "x".toList then some .X
  else if f = "y".toList then some .Y
  else if f = "z".toList then some .Z
  else if f = "u".toList then some .U
  else if f = "v".toList then some .V
  else if f = "w".toList then some .W
  else if f = "p".toList then some .P
  else if f = "q".toList then some .Q
  else if f = "r".toList then some .R
  else if f = "phi".toList then some .PHI
  else if f = "theta".toList then some .THETA
  else if f = "psi".toList then some .PSI
  else if f = "qr".toList then some .QR
  else if f = "qi".toList then some .QI
  else if f = "qj".toList then some .QJ
  else if f = "qk".toList then some .QK
  else none

/-- maneuvering_compiler.cpp:138-163, given the node of the argument and the printed call -/
def callNode (f : Text) (arg : Node) (printed : Text) : Node :=
  match fnOf f with
  | some g => .fn g arg
  | none =>
    match stateOf f with
    | some s => .state s arg
    | none => .unknown printed

mutual
/-- maneuvering_compiler.cpp:86-94, 134-163 -/
def evalAtom : Atom → Node
  | .num l => .constant l
  | .ident n => if n = "t".toList then .time else .unknown n
  | .call f e => callNode f (evalExpr e) (printAtom fmt (.call f e))
/-- maneuvering_compiler.cpp:95-98 -/
def evalBase : Base → Node
  | .paren e => evalExpr e
  | .atom a => evalAtom a
/-- maneuvering_compiler.cpp:105 -/
def evalExps : Node → List Base → Node
  | ret, [] => ret
  | ret, e :: l => evalExps (.bin .pow ret (evalBase e)) l
/-- maneuvering_compiler.cpp:99-107 -/
def evalFactor : Factor → Node
  | .mk b l => evalExps (evalBase b) l
/-- maneuvering_compiler.cpp:111-118 -/
def evalFactors : Node → List (Char × Factor) → Node
  | ret, [] => ret
  | ret, (c, f) :: l => evalFactors (applyOp c ret (evalFactor f)) l
/-- maneuvering_compiler.cpp:108-120 -/
def evalTerm : Term → Node
  | .mk f l => evalFactors (evalFactor f) l
/-- maneuvering_compiler.cpp:124-131 -/
def evalTerms : Node → List (Char × Term) → Node
  | ret, [] => ret
  | ret, (c, t) :: l => evalTerms (applyOp c ret (evalTerm t)) l
/-- maneuvering_compiler.cpp:121-133 -/
def evalExpr : Expr → Node
  | .mk t l => evalTerms (evalTerm t) l
end

/-- compile, maneuvering_compiler.cpp:167-175: neither the result of phrase_parse nor the position
where it stopped is looked at. If nothing was parsed, `ast` is the default-constructed tree, a
single `Nil`, which evaluates to make_constant(std::nan("")) (maneuvering_compiler.cpp:82-85). -/
def compile (s : Text) : Node :=
  match phraseParse s with
  | some (ast, _) => evalExpr fmt ast
  | none => .nan

/-- print, maneuvering_compiler.cpp:177-185, and 21-24 for the empty tree -/
def print (s : Text) : Text :=
  match phraseParse s with
  | some (ast, _) => printExpr fmt ast
  | none => "NaN".toList

end

/-! ### Value of a node -/

/-- double arithmetic: any interpretation of the literals, the operators and the functions -/
structure Arith (D : Type) where
  lit : Text → D
  nan : D
  add : D → D → D
  sub : D → D → D
  mul : D → D → D
  div : D → D → D
  pow : D → D → D
  fn : Fn → D → D

/-- what an expression is evaluated on: the date, the recorded states (value of a state with a given
delay, BodyStates and History; an error if it is not known) and the data source -/
structure Env (D : Type) where
  t : D
  state : StateType → D → Except String D
  ds : Text → Except String D

/-- the binary operators, ManeuveringInternal.cpp:195-203, 224-232, 317-325, 346-354, 375-383 -/
def Arith.op {D : Type} (A : Arith D) : Op → D → D → D
  | .sum => A.add
  | .difference => A.sub
  | .multiply => A.mul
  | .divide => A.div
  | .pow => A.pow

/-- get_lambda, ManeuveringInternal.cpp:38-44, 73-80, 100-107, 128-135, 167-174, 195-203, 224-232,
261-268, 285-292, 317-325, 346-354, 375-383, 404-410, 431-437 and ManeuveringInternal.hpp:203-236
(a state is read with the delay t - operand). An exception of an operand is an exception of the
node; which of two exceptions is thrown first is not specified by C++. -/
def Node.eval {D : Type} (A : Arith D) (env : Env D) : Node → Except String D
  | .nan => .ok A.nan
  | .constant l => .ok (A.lit l)
  | .time => .ok env.t
  | .unknown n => env.ds n
  | .fn f a => (Node.eval A env a).map (A.fn f)
  | .state s a =>
    match Node.eval A env a with
    | .error e => .error e
    | .ok v => env.state s (A.sub env.t v)
  | .bin o a b =>
    match Node.eval A env a with
    | .error e => .error e
    | .ok x => (Node.eval A env b).map (A.op o x)

end Xdyn.Maneuvering
