/-!
JSON texts (RFC 8259): a recursive descent reader.  `readNum` reads the text of a number.  Simplification: the escape `\u` is not
read (such a text is rejected).
-/

namespace Xdyn.JsonText

/-- JSON values; keys and strings are lists of characters, and the members of an object are in the order of the text. -/
inductive Value (N : Type) where
  | null
  | bool (b : Bool)
  | num (n : N)
  | str (s : List Char)
  | arr (l : List (Value N))
  | obj (m : List (List Char × Value N))

def isWs (c : Char) : Bool := c == ' ' || c == '\n' || c == '\t' || c == '\r'

def skip (s : List Char) : List Char := s.dropWhile isWs

def isNumChar (c : Char) : Bool := c.isDigit || c == '+' || c == '-' || c == '.' || c == 'e' || c == 'E'

def escape (c : Char) : Option Char :=
  if c = '"' then some '"' else if c = '\\' then some '\\' else if c = '/' then some '/' else if c = 'n' then some '\n'
  else if c = 't' then some '\t' else if c = 'r' then some '\r' else if c = 'b' then some '\x08' else if c = 'f' then some '\x0c' else none

/-- The rest of a string after the opening quote; control characters are forbidden. -/
def stringBody : List Char → Option (List Char × List Char)
  | [] => none
  | [c] => if c = '"' then some ([], []) else none
  | c :: d :: r =>
    if c = '"' then some ([], d :: r)
    else if c = '\\' then
      match escape d, stringBody r with
      | some e, some (s, r) => some (e :: s, r)
      | _, _ => none
    else if c.toNat < 32 then none
    else match stringBody (d :: r) with
      | some (s, r) => some (c :: s, r)
      | none => none

variable {N : Type}

mutual
/-- A value, and what follows. -/
def value (readNum : List Char → Option N) : Nat → List Char → Option (Value N × List Char)
  | 0, _ => none
  | fuel + 1, s =>
    match skip s with
    | [] => none
    | c :: r =>
      if c = '{' then (members readNum fuel true r).map (fun p => (.obj p.1, p.2))
      else if c = '[' then (elements readNum fuel true r).map (fun p => (.arr p.1, p.2))
      else if c = '"' then (stringBody r).map (fun p => (.str p.1, p.2))
      else if c = 'n' then (if "ull".toList.isPrefixOf r then some (.null, r.drop 3) else none)
      else if c = 't' then (if "rue".toList.isPrefixOf r then some (.bool true, r.drop 3) else none)
      else if c = 'f' then (if "alse".toList.isPrefixOf r then some (.bool false, r.drop 4) else none)
      else (readNum ((c :: r).takeWhile isNumChar)).map (fun n => (.num n, (c :: r).dropWhile isNumChar))

/-- The members of an object, after `{` (`first`) or after a comma. -/
def members (readNum : List Char → Option N) : Nat → Bool → List Char → Option (List (List Char × Value N) × List Char)
  | 0, _, _ => none
  | fuel + 1, first, s =>
    match skip s with
    | [] => none
    | c :: r =>
      if c = '}' then (if first then some ([], r) else none)
      else if c = '"' then
        match stringBody r with
        | none => none
        | some (k, r) =>
          match skip r with
          | [] => none
          | c :: r =>
            if c = ':' then
              match value readNum fuel r with
              | none => none
              | some (v, r) =>
                match skip r with
                | [] => none
                | c :: r =>
                  if c = '}' then some ([(k, v)], r)
                  else if c = ',' then (members readNum fuel false r).map (fun p => ((k, v) :: p.1, p.2))
                  else none
            else none
      else none

/-- The elements of an array, after `[` (`first`) or after a comma. -/
def elements (readNum : List Char → Option N) : Nat → Bool → List Char → Option (List (Value N) × List Char)
  | 0, _, _ => none
  | fuel + 1, first, s =>
    match skip s with
    | [] => none
    | c :: r =>
      if c = ']' then (if first then some ([], r) else none)
      else
        match value readNum fuel (c :: r) with
        | none => none
        | some (v, r) =>
          match skip r with
          | [] => none
          | c :: r =>
            if c = ']' then some ([v], r)
            else if c = ',' then (elements readNum fuel false r).map (fun p => (v :: p.1, p.2))
            else none
end

/-- The value of a JSON text: nothing but white space may follow it. -/
def parse (readNum : List Char → Option N) (s : List Char) : Option (Value N) :=
  match value readNum (s.length + 1) s with
  | some (v, r) => if skip r = [] then some v else none
  | none => none

/-- Value of a key in an object: its first occurrence. -/
def get? (m : List (List Char × Value N)) (k : String) : Option (Value N) := (m.find? (fun p => p.1 == k.toList)).map (fun p => p.2)

end Xdyn.JsonText
