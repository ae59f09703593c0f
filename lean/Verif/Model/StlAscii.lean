import Verif.Model.Common
import Verif.Model.Stl

/-
Model of the text STL reader and writer:
code/external_file_formats/src/stl_writer.cpp:6-45 (`write_stl`) and
code/external_file_formats/src/stl_reader.cpp:23-147,184-196 (`ParserState::get_line`,
`read_vertex`, `read_normal`, `read_ascii_stl`, `read_stl`).

`K` is the type of the coordinates; the text `os << x` is the parameter `print` and one
conversion `%lf` of `sscanf` is the parameter `scan` (the value read and what is left of
the string, `none` when nothing can be converted).  `setlocale` is not modelled.
-/

namespace Xdyn.StlAscii

abbrev Text := List Char

/-- The characters of a literal string of the code. -/
def lit (s : String) : Text := s.toList

/-- A vertex and a mesh (`EPoint`, `VectorOfVectorOfPoints`). -/
abbrev Vertex (K : Type) := K × K × K
abbrev TextMesh (K : Type) := List (List (Vertex K))

/-- `operator<<(std::ostream&, const EPoint&)`, stl_writer.cpp:7-13. -/
def writeVertex {K : Type} (print : K → Text) (p : Vertex K) : Text :=
  (lit "      vertex   ") ++ print p.1 ++ (lit "     ") ++ print p.2.1 ++ (lit "     ")
    ++ print p.2.2 ++ (lit "\n")

/-- `operator<<(std::ostream&, const VectorOfPoints&)`, stl_writer.cpp:16-27. -/
def writeFacet {K : Type} (print : K → Text) (f : List (Vertex K)) : Text :=
  (lit "  facet normal   0.00000  0.00000  0.00000\n") ++ (lit "    outer loop\n")
    ++ (f.map (writeVertex print)).flatten ++ (lit "    endloop\n") ++ (lit "  endfacet\n")

/-- `write_stl`, stl_writer.cpp:29-39. -/
def writeStl {K : Type} (print : K → Text) (mesh : TextMesh K) : Text :=
  (lit "solid MYSOLID\n") ++ (mesh.map (writeFacet print)).flatten ++ (lit "endsolid MYSOLID\n")

/-- A `std::istream` with the flags tested by the reader. -/
structure TStream where
  data : Text
  eof : Bool
  fail : Bool
deriving DecidableEq

/-- A C string ends at its first NUL. -/
def cstr (l : Text) : Text := l.takeWhile (fun c => c != '\x00')

/-- `get_line`, stl_reader.cpp:35-37: `std::istream::getline(line, 256)`.  At most 255
characters are stored; a longer line sets `failbit`; nothing extracted sets `failbit`;
reaching the end sets `eofbit`. -/
def getLine (s : TStream) : Text × TStream :=
  if s.eof || s.fail then ([], { s with fail := true })
  else
    let l := s.data.takeWhile (fun c => c != '\n')
    let rest := s.data.dropWhile (fun c => c != '\n')
    if l.length ≤ 255 then
      match rest with
      | [] => (cstr l, { data := [], eof := true, fail := l.isEmpty })
      | _ :: r => (cstr l, { data := r, eof := false, fail := false })
    else (cstr (l.take 255), { data := s.data.drop 255, eof := false, fail := true })

/-- `isspace` in the "C" locale. -/
def isSpace (c : Char) : Bool :=
  c == ' ' || c == '\t' || c == '\n' || c == '\r' || c == '\x0b' || c == '\x0c'

/-- `sscanf(line, "%s%n", token, &width)`: the first word and what follows it; `none` when
there is no word (`token` and `width` are then left as they were). -/
def word (l : Text) : Option (Text × Text) :=
  match l.dropWhile isSpace with
  | [] => none
  | c :: r => some ((c :: r).takeWhile (fun c => !isSpace c), (c :: r).dropWhile (fun c => !isSpace c))

/-- `sscanf(line, "%lf %lf %lf", ...)`: `none` when one of the three values is not converted
(it is then left uninitialised). -/
def scan3 {K : Type} (scan : Text → Option (K × Text)) (l : Text) : Option (Vertex K) := do
  let (x, l) ← scan l
  let (y, l) ← scan l
  let (z, _) ← scan l
  return (x, y, z)

/-- `read_vertex`, stl_reader.cpp:45-57.  A word of 20 characters or more overflows the
buffer `token[20]`; an unread coordinate is indeterminate: undefined behaviour. -/
def readVertex {K : Type} (scan : Text → Option (K × Text)) (line : Text) : Except Err (Vertex K) :=
  match word line with
  | none => .error (.throw "Error parsing \"vertex")
  | some (token, rest) =>
    if 20 ≤ token.length then .error .ub
    else if token ≠ (lit "vertex") then .error (.throw "Error parsing \"vertex")
    else match scan3 scan rest with
      | some v => .ok v
      | none => .error .ub

/-- `read_normal`, stl_reader.cpp:59-67.  `token` is not initialised; the normal which is
read is never used. -/
def readNormal (line : Text) : Except Err Unit :=
  match word line with
  | none => .error .ub
  | some (token, _) =>
    if 20 ≤ token.length then .error .ub
    else if token ≠ (lit "normal") then .error (.throw "Error parsing \"normal")
    else .ok ()

/-- A facet, from the end of its first line on: stl_reader.cpp:108-127. -/
def readFacet {K : Type} (scan : Text → Option (K × Text)) (next : Text) (s : TStream) :
    Except Err (List (Vertex K) × TStream) := do
  readNormal next
  let (_, s) := getLine s
  let (l1, s) := getLine s
  let v1 ← readVertex scan l1
  let (l2, s) := getLine s
  let v2 ← readVertex scan l2
  let (l3, s) := getLine s
  let v3 ← readVertex scan l3
  let (_, s) := getLine s
  let (_, s) := getLine s
  return ([v1, v2, v3], s)

/-- The variables of the loop of `read_ascii_stl` that survive from one turn to the next:
`token` (uninitialised at first), `endReached`, the stream and the result. -/
structure Loop (K : Type) where
  token : Option Text
  endReached : Bool
  s : TStream
  result : TextMesh K

/-- What is done with the first word of a line, stl_reader.cpp:103-137. -/
def dispatch {K : Type} (scan : Text → Option (K × Text)) (token next : Text) (st : Loop K) :
    Except Err (Loop K) :=
  if token = (lit "facet") then do
    let (f, s) ← readFacet scan next st.s
    return { token := some token, endReached := st.endReached, s := s, result := st.result ++ [f] }
  else if token = (lit "color") ∨ token = (lit "solid") then
    return { st with token := some token }
  else if token = (lit "endsolid") then
    return { st with token := some token, endReached := true }
  else .error (.throw "Error unknown token")

/-- One turn of the loop, stl_reader.cpp:88-138.  On a line which has no word but is not made
of blanks only (tabs, carriage return) the previous token and width are used again: undefined
behaviour if there is no previous token, or if it is `facet` (the characters after the end of
the line are read). -/
def turn {K : Type} (scan : Text → Option (K × Text)) (st : Loop K) : Except Err (Loop K) :=
  let (input, s) := getLine st.s
  let st := { st with s := s }
  let next := input.dropWhile (fun c => c == ' ')
  match next with
  | [] => .ok st
  | c :: _ =>
    if c = '#' ∨ c = '!' ∨ c = '$' then .ok st
    else match word next with
      | some (token, rest) => dispatch scan token rest st
      | none =>
        match st.token with
        | none => .error .ub
        | some token => if token = (lit "facet") then .error .ub else dispatch scan token [] st

/-- The `while` loop, stl_reader.cpp:86.  `fuel` bounds the number of turns;
`read_never_runs_out` shows that it is never exhausted. -/
def loop {K : Type} (scan : Text → Option (K × Text)) : Nat → Loop K → Except Err (Loop K)
  | 0, st => if st.s.fail || st.s.eof then .ok st else .error (.throw "out of fuel")
  | fuel + 1, st =>
    if st.s.fail || st.s.eof then .ok st
    else match turn scan st with
      | .ok st => loop scan fuel st
      | .error e => .error e

/-- `read_ascii_stl`, stl_reader.cpp:72-147.  The first line is skipped. -/
def readAscii {K : Type} (scan : Text → Option (K × Text)) (input : Text) :
    Except Err (TextMesh K) :=
  let (_, s) := getLine { data := input, eof := false, fail := false }
  match loop scan (input.length + 1) { token := none, endReached := false, s := s, result := [] } with
  | .error e => .error e
  | .ok st =>
    if st.endReached then .ok st.result
    else .error (.throw "The 'endsolid' keyword was not found before the end of file.")

/-- What `read_stl` (stl_reader.cpp:184-196) returns, for a text or for a binary file. -/
inductive Read (K : Type) where
  | text (mesh : TextMesh K)
  | binary (mesh : List Stl.Facet)

/-- `read_stl`, stl_reader.cpp:184-196, on a byte string; `is_stl_data_binary` throws
`std::out_of_range` on blank data. -/
def readStl {K : Type} (scan : Text → Option (K × Text)) (input : List Stl.Byte) :
    Except Err (Read K) :=
  match Stl.isBinary input with
  | none => .error (.throw "out_of_range")
  | some true =>
    match Stl.readBinary input with
    | some m => .ok (.binary m)
    | none => .error .ub
  | some false =>
    match readAscii scan (input.map (fun b => Char.ofNat b.val)) with
    | .ok m => .ok (.text m)
    | .error e => .error e

end Xdyn.StlAscii
