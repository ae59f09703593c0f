/-
Model of the binary STL reader and writer:
code/external_file_formats/src/stl_writer.cpp:80-114 (`write_binary_stl`) and
code/external_file_formats/src/stl_reader.cpp:149-242 (`is_stl_data_binary`, `read_stl` for
binary data, `read_binary_stl`).

A `float` is the 32-bit word that represents it.  The conversions `(float)x` of the writer
are outside the model: a mesh is given by its `float` coordinates (the reader converts
them back to `double`, which is exact).  The machine is little-endian (x86), as the code
assumes when it copies the bytes of `nFaces` and of the coordinates.
-/

namespace Xdyn.Stl

abbrev Byte := Fin 256
/-- The bit pattern of a `float` or of an `unsigned int`. -/
abbrev Word := Fin 4294967296
/-- Coordinates of a point. -/
abbrev Point := Word × Word × Word
/-- `VectorOfPoints`: the vertices of a facet, in any number. -/
abbrev Facet := List Point

/-- The four bytes of a word in memory order (`reinterpret_cast<const char*>`),
stl_writer.cpp:84,100-110. -/
def bytesOfWord (w : Word) : List Byte :=
  [⟨w.val % 256, by omega⟩, ⟨w.val / 256 % 256, by omega⟩, ⟨w.val / 65536 % 256, by omega⟩,
   ⟨w.val / 16777216 % 256, by omega⟩]

/-- The word made of four bytes in memory order (`memcpy`, stl_reader.cpp:206 and 223). -/
def wordOfBytes (a b c d : Byte) : Word :=
  ⟨a.val + 256 * b.val + 65536 * c.val + 16777216 * d.val, by omega⟩

/-- Bytes of the three coordinates of a point, stl_writer.cpp:105-110. -/
def bytesOfPoint (p : Point) : List Byte :=
  bytesOfWord p.1 ++ bytesOfWord p.2.1 ++ bytesOfWord p.2.2

/-- One turn of the writer's loop, stl_writer.cpp:91-112.  The normal is an arbitrary
function of the three vertices (`unit_normal__`, lines 53-78).  A facet with fewer than three
vertices is read out of bounds at line 94 (`none`); vertices after the third one are
ignored. -/
def writeFacet (normal : Point → Point → Point → Point) : Facet → Option (List Byte)
  | a :: b :: c :: _ =>
    some (bytesOfPoint (normal a b c) ++ bytesOfPoint a ++ bytesOfPoint b ++ bytesOfPoint c ++ [0, 0])
  | _ => none

/-- The loop over the facets, stl_writer.cpp:89-113. -/
def writeFacets (normal : Point → Point → Point → Point) : List Facet → Option (List Byte)
  | [] => some []
  | f :: fs => do return (← writeFacet normal f) ++ (← writeFacets normal fs)

/-- `write_binary_stl`, stl_writer.cpp:80-114.  `nFaces` is `stl.size()` truncated to 32
bits, and only the first `nFaces` facets are written. -/
def write (normal : Point → Point → Point → Point) (stl : List Facet) : Option (List Byte) := do
  let nFaces := stl.length % 4294967296
  let body ← writeFacets normal (stl.take nFaces)
  return List.replicate 80 1 ++ bytesOfWord ⟨nFaces, by omega⟩ ++ body

/-- A `std::istream` on a byte string: the bytes not yet extracted and `good()`. -/
structure Stream where
  data : List Byte
  good : Bool

/-- `stream.ignore(n)`: extracts `n` characters; reaching the end before sets `eofbit`; does
nothing on a stream which is not good. -/
def Stream.ignore (s : Stream) (n : Nat) : Stream :=
  if s.good then
    if n ≤ s.data.length then { s with data := s.data.drop n } else { data := [], good := false }
  else s

/-- `stream.get(c)`: `none` when nothing can be extracted (`c` is then left uninitialised,
stl_reader.cpp:221-223). -/
def Stream.get (s : Stream) : Option Byte × Stream :=
  if s.good then
    match s.data with
    | c :: cs => (some c, { s with data := cs })
    | [] => (none, { data := [], good := false })
  else (none, s)

/-- The inner loop over `k` (stl_reader.cpp:219-224): a word, or `none` if one of its bytes
is indeterminate. -/
def readWord (s : Stream) : Option Word × Stream :=
  let (a, s) := s.get
  let (b, s) := s.get
  let (c, s) := s.get
  let (d, s) := s.get
  (do return wordOfBytes (← a) (← b) (← c) (← d), s)

/-- The loop over `j` (stl_reader.cpp:216-225): `n` words. -/
def readWords : Nat → Stream → List (Option Word) × Stream
  | 0, s => ([], s)
  | n + 1, s =>
    let (w, s) := readWord s
    let (ws, s) := readWords n s
    (w :: ws, s)

/-- `EPoint(v[0], v[1], v[2])`... pushed at stl_reader.cpp:229-233, where `v` holds the nine
words read so far, possibly indeterminate: using an indeterminate value is undefined
behaviour (`none`). -/
def facetOf : List (Option Word) → Option Facet
  | [a, b, c, d, e, f, g, h, i] => do
    return [(← a, ← b, ← c), (← d, ← e, ← f), (← g, ← h, ← i)]
  | _ => none

/-- The loop over the faces, stl_reader.cpp:211-234.  When the stream is not good, the
previous content of `v` is pushed again. -/
def readFacets : Nat → List (Option Word) → Stream → Option (List Facet)
  | 0, _, _ => some []
  | n + 1, v, s =>
    let (v, s) :=
      if s.good then
        let (v, s) := readWords 9 (s.ignore 12)
        (v, s.ignore 2)
      else (v, s)
    do return (← facetOf v) :: (← readFacets n v s)

/-- `stream.read(buffer, 4)` then `memcpy` into `nFaces`, stl_reader.cpp:200-206: `buffer` is
zero-initialised, so missing bytes are 0. -/
def readCount (s : Stream) : Nat × Stream :=
  if s.good then
    let b := s.data.take 4
    ((wordOfBytes (b.getD 0 0) (b.getD 1 0) (b.getD 2 0) (b.getD 3 0)).val,
      if 4 ≤ s.data.length then { s with data := s.data.drop 4 } else { data := [], good := false })
  else (0, s)

/-- `read_binary_stl`, stl_reader.cpp:198-242.  `none` is undefined behaviour. -/
def readBinary (input : List Byte) : Option (List Facet) :=
  let s := Stream.ignore { data := input, good := true } 80
  let (n, s) := readCount s
  readFacets n (List.replicate 9 none) s

/-- `"solid "` and its upper-case version (stl_reader.cpp:155-162, 174). -/
def solidLower : List Byte := [115, 111, 108, 105, 100, 32]
def solidUpper : List Byte := [83, 79, 76, 73, 68, 32]

/-- `starts_with`, stl_reader.cpp:149-153: `std::string::compare` throws `std::out_of_range`
(`none`) when the offset is beyond the end; `none` as offset is `npos`. -/
def startsWith (input pattern : List Byte) (offset : Option Nat) : Option Bool :=
  if pattern.length ≤ input.length then
    match offset with
    | some k => if k ≤ input.length then some ((input.drop k).take pattern.length == pattern) else none
    | none => none
  else some false

/-- `is_stl_data_binary`, stl_reader.cpp:164-182: the leading blanks and tabs are skipped. -/
def isBinary (input : List Byte) : Option Bool := do
  let offset := input.findIdx? (fun c => !(c.val == 32 || c.val == 9))
  if ← startsWith input solidLower offset then return false
  if ← startsWith input solidUpper offset then return false
  return true

end Xdyn.Stl
