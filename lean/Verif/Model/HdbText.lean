import Verif.Model.Hdb

/-
Model of the reading of the text of an HDB file: external_file_formats/inc/hdb_grammar.hpp and
external_file_formats/src/hdb_to_ast.cpp.

The grammar is a parsing expression grammar (Boost.Spirit Qi): ordered choice, greedy repetitions without backtracking, and a
skipper (blanks: space and tabulation) applied before every terminal outside `lexeme`.  A failed alternative leaves neither
consumed text nor attribute behind (the attributes of alternatives and of the elements of repetitions are fresh values).
The lexer of numbers (`double_`) is an arbitrary function.  Texts are lists of characters.
-/

namespace Xdyn.Hdb

/-- What parses a beginning of a text: nothing (`none`), or a value and the rest of the text; `error` is an exception. -/
abbrev Parser (α : Type) := List Char → Except Err (Option (α × List Char))

section
variable {α β : Type}

/-- `p >> q` where `q` may use the attribute of `p` -/
def andThen (p : Parser α) (q : α → Parser β) : Parser β := fun s =>
  match p s with
  | .error e => .error e
  | .ok none => .ok none
  | .ok (some (a, r)) => q a r

/-- No text -/
def give (a : α) : Parser α := fun s => .ok (some (a, s))

/-- `p | q` -/
def orElse (p q : Parser α) : Parser α := fun s =>
  match p s with
  | .error e => .error e
  | .ok none => q s
  | .ok (some x) => .ok (some x)

/-- `*p`, at most `n` times.  The callers give `n` the length of the text: every iteration of the grammar consumes at least
one character, so that the bound does not matter. -/
def manyN (p : Parser α) : Nat → Parser (List α)
  | 0 => give []
  | n + 1 => fun s =>
    match p s with
    | .error e => .error e
    | .ok none => .ok (some ([], s))
    | .ok (some (a, r)) =>
      match manyN p n r with
      | .error e => .error e
      | .ok none => .ok none
      | .ok (some (l, r')) => .ok (some (a :: l, r'))

/-- `*p` -/
def many (p : Parser α) : Parser (List α) := fun s => manyN p s.length s

/-- `+p` -/
def plus (p : Parser α) : Parser (List α) := andThen p (fun a => andThen (many p) (fun l => give (a :: l)))

/-- `p % q` -/
def sepBy (p : Parser α) (q : Parser β) : Parser (List α) :=
  andThen p (fun a => andThen (many (andThen q (fun _ => p))) (fun l => give (a :: l)))

/-- `-p`, the attribute being ignored -/
def opt (p : Parser α) : Parser Unit := orElse (andThen p (fun _ => give ())) (give ())

end

/-- `ascii::blank` -/
def isBlank (c : Char) : Bool := c == ' ' || c == '\t'

/-- The skipper -/
def skip (s : List Char) : List Char := s.dropWhile isBlank

/-- `lit(c)` -/
def lit (c : Char) : Parser Unit := fun s =>
  match skip s with
  | d :: r => if d = c then .ok (some ((), r)) else .ok none
  | [] => .ok none

/-- `eol`, after the skipper: CR LF, CR or LF -/
def eolRaw : List Char → Option (List Char)
  | '\r' :: '\n' :: r => some r
  | '\r' :: r => some r
  | '\n' :: r => some r
  | _ => none

/-- `eol` -/
def eol : Parser Unit := fun s => .ok ((eolRaw (skip s)).map (fun r => ((), r)))

/-- `qi::char_("_a-zA-Z")` -/
def isFirst (c : Char) : Bool := c == '_' || c.isAlpha

/-- `qi::char_("-_a-zA-Z0-9+")` -/
def isWord (c : Char) : Bool := c == '-' || c == '_' || c == '+' || c.isAlphanum

/-- `*(qi::hold[+(qi::char_(' ')) >> +(qi::char_("-_a-zA-Z0-9+"))])`, at most `n` times (see `manyN`) -/
def moreWords : Nat → List Char → List Char × List Char
  | 0, s => ([], s)
  | n + 1, s =>
    let sp := s.takeWhile (· == ' ')
    let r := s.dropWhile (· == ' ')
    let w := r.takeWhile isWord
    if sp.isEmpty || w.isEmpty then ([], s)
    else
      let x := moreWords n (r.dropWhile isWord)
      (sp ++ w ++ x.1, x.2)

/-- `str`, hdb_grammar.hpp:29 -/
def str : Parser String := fun s =>
  match skip s with
  | c :: r =>
    let w := r.takeWhile isWord
    if isFirst c && !w.isEmpty then
      let x := moreWords s.length (r.dropWhile isWord)
      .ok (some (String.ofList (c :: w ++ x.1), x.2))
    else .ok none
  | [] => .ok none

/-- `header`, hdb_grammar.hpp:30: what follows `>` is mandatory, its absence is an exception (`expectation_failure`) -/
def header : Parser String :=
  andThen (lit '[') (fun _ => andThen str (fun h => fun s =>
    match lit ']' s with
    | .ok (some (_, r)) => .ok (some (h, r))
    | .ok none => .error (.throw "expectation_failure")
    | .error e => .error e))

/-- hdb::Ast, boost_spirit_hdb_adapters.hpp:61-68: one element of the file -/
inductive Item (K : Type) where
  | stringKey (header value : String)
  | valueKey (header : String) (value : K)
  | vector (header : String) (values : List K)
  | matrix (m : MatrixSection K)
  | list (l : ListOfMatrixSections K)
  | listWithId (l : ListOfMatrixSectionsWithId K)
deriving Repr, DecidableEq

section
variable {K : Type} (num : List Char → Option (K × List Char))

/-- `double_` -/
def double : Parser K := fun s => .ok (num (skip s))

/-- `string_key`, hdb_grammar.hpp:31 -/
def stringKey : Parser (Item K) :=
  andThen header (fun h => andThen str (fun v => andThen (opt eol) (fun _ => give (.stringKey h v))))

/-- `value_key`, hdb_grammar.hpp:32 -/
def valueKey : Parser (Item K) :=
  andThen header (fun h => andThen (double num) (fun v => andThen (opt eol) (fun _ => give (.valueKey h v))))

/-- `values`, hdb_grammar.hpp:33 -/
def values : Parser (List K) :=
  andThen (double num) (fun x => andThen (plus (double num)) (fun l => andThen (opt eol) (fun _ => give (x :: l))))

/-- `vector_section`, hdb_grammar.hpp:34 -/
def vectorSection : Parser (Item K) :=
  andThen header (fun h => andThen eol (fun _ =>
    andThen (plus (andThen (double num) (fun x => andThen eol (fun _ => give x)))) (fun l =>
      andThen (opt eol) (fun _ => give (.vector h l)))))

/-- `+(values % eol)`: the attributes of the lists are appended to the same vector, hdb_grammar.hpp:35 and 38 -/
def rows : Parser (List (List K)) := andThen (plus (sepBy (values num) eol)) (fun l => give l.flatten)

/-- `matrix_section`, hdb_grammar.hpp:35 -/
def matrixSection : Parser (MatrixSection K) :=
  andThen header (fun h => andThen eol (fun _ => andThen (rows num) (fun l => andThen (opt eol) (fun _ => give ⟨h, l⟩))))

/-- `list_of_matrix_sections`, hdb_grammar.hpp:36 -/
def listOfMatrixSections : Parser (Item K) :=
  andThen header (fun h => andThen eol (fun _ => andThen (plus (matrixSection num)) (fun l =>
    andThen (opt eol) (fun _ => give (.list ⟨h, l⟩)))))

/-- `header >> double_ >> eol >> +(values % eol)`, hdb_grammar.hpp:38 -/
def sectionWithId : Parser (SectionWithId K) :=
  andThen header (fun h => andThen (double num) (fun x => andThen eol (fun _ => andThen (rows num) (fun l => give ⟨h, x, l⟩))))

/-- `list_of_matrix_sections_with_id`, hdb_grammar.hpp:38 -/
def listWithId : Parser (Item K) :=
  andThen header (fun h => andThen eol (fun _ => andThen (plus (sectionWithId num)) (fun l => give (.listWithId ⟨h, l⟩))))

/-- `ast`, hdb_grammar.hpp:23-28 -/
def ast : Parser (Item K) :=
  orElse (stringKey (K := K)) (orElse (valueKey num) (orElse (vectorSection num)
    (orElse (andThen (matrixSection num) (fun m => give (.matrix m))) (orElse (listOfMatrixSections num) (listWithId num)))))

/-- hdb::AST, hdb_parser_internal_data_structures.hpp:70-80 -/
structure Ast (K : Type) where
  stringKeys : List (String × String)
  valueKeys : List (String × K)
  vectors : List (String × List K)
  matrices : List (MatrixSection K)
  lists : List (ListOfMatrixSections K)
  listsWithId : List (ListOfMatrixSectionsWithId K)
deriving DecidableEq

/-- `Ast_visitor`, hdb_to_ast.cpp:11-48 -/
def visit (t : Ast K) : Item K → Ast K
  | .stringKey h v => { t with stringKeys := t.stringKeys ++ [(h, v)] }
  | .valueKey h v => { t with valueKeys := t.valueKeys ++ [(h, v)] }
  | .vector h v => { t with vectors := t.vectors ++ [(h, v)] }
  | .matrix m => { t with matrices := t.matrices ++ [m] }
  | .list l => { t with lists := t.lists ++ [l] }
  | .listWithId l => { t with listsWithId := t.listsWithId ++ [l] }

/-- `hdb::parse`, hdb_to_ast.cpp:51-69: neither the result of `phrase_parse` nor the end of what was read is looked at. -/
def parseHdb (contents : List Char) : Except Err (Ast K) :=
  match many (ast num) contents with
  | .error e => .error e
  | .ok none => .ok ⟨[], [], [], [], [], []⟩
  | .ok (some (l, _)) => .ok (l.foldl visit ⟨[], [], [], [], [], []⟩)

end

end Xdyn.Hdb
