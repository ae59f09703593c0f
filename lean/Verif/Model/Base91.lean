/-
Model of code/base91x/base91.hpp, `base<91>` (lines 55-196).
Bytes (and `unsigned char`s of the text) are `Fin 256`.  The `unsigned long` bit queue and
the `int`s are `Nat`s: the invariants proved in `Verif/Lemmas/Base91.lean` bound them by
2^22, so no C++ overflow can occur.
-/

namespace Xdyn.Base91

/-- A byte (`unsigned char`). -/
abbrev Byte := Fin 256

/-- code/base91x/base91.hpp:58-67, `enctab` (Henke's original dictionary, which is the one
compiled since `USE_RLYEH_MODIFIED_DICT` is commented out at line 38), as character codes. -/
def enctab : List Byte :=
  [65, 66, 67, 68, 69, 70, 71, 72, 73, 74, 75, 76, 77,
   78, 79, 80, 81, 82, 83, 84, 85, 86, 87, 88, 89, 90,
   97, 98, 99, 100, 101, 102, 103, 104, 105, 106, 107, 108, 109,
   110, 111, 112, 113, 114, 115, 116, 117, 118, 119, 120, 121, 122,
   48, 49, 50, 51, 52, 53, 54, 55, 56, 57, 33, 35, 36,
   37, 38, 40, 41, 42, 43, 44, 46, 47, 58, 59, 60, 61,
   62, 63, 64, 91, 93, 94, 95, 96, 123, 124, 125, 126, 34]

/-- code/base91x/base91.hpp:124-142, `dectab`; 91 marks a character outside the alphabet. -/
def dectab : List Nat :=
  [91, 91, 91, 91, 91, 91, 91, 91, 91, 91, 91, 91, 91, 91, 91, 91,
   91, 91, 91, 91, 91, 91, 91, 91, 91, 91, 91, 91, 91, 91, 91, 91,
   91, 62, 90, 63, 64, 65, 66, 91, 67, 68, 69, 70, 71, 91, 72, 73,
   52, 53, 54, 55, 56, 57, 58, 59, 60, 61, 74, 75, 76, 77, 78, 79,
   80,  0,  1,  2,  3,  4,  5,  6,  7,  8,  9, 10, 11, 12, 13, 14,
   15, 16, 17, 18, 19, 20, 21, 22, 23, 24, 25, 81, 91, 82, 83, 84,
   85, 26, 27, 28, 29, 30, 31, 32, 33, 34, 35, 36, 37, 38, 39, 40,
   41, 42, 43, 44, 45, 46, 47, 48, 49, 50, 51, 86, 87, 88, 89, 91,
   91, 91, 91, 91, 91, 91, 91, 91, 91, 91, 91, 91, 91, 91, 91, 91,
   91, 91, 91, 91, 91, 91, 91, 91, 91, 91, 91, 91, 91, 91, 91, 91,
   91, 91, 91, 91, 91, 91, 91, 91, 91, 91, 91, 91, 91, 91, 91, 91,
   91, 91, 91, 91, 91, 91, 91, 91, 91, 91, 91, 91, 91, 91, 91, 91,
   91, 91, 91, 91, 91, 91, 91, 91, 91, 91, 91, 91, 91, 91, 91, 91,
   91, 91, 91, 91, 91, 91, 91, 91, 91, 91, 91, 91, 91, 91, 91, 91,
   91, 91, 91, 91, 91, 91, 91, 91, 91, 91, 91, 91, 91, 91, 91, 91,
   91, 91, 91, 91, 91, 91, 91, 91, 91, 91, 91, 91, 91, 91, 91, 91]

/-- Local variables of the encoder (base91.hpp:79-85): the bit queue, the number of bits it
holds and the indices in `enctab` of the characters written so far. -/
structure Enc where
  queue : Nat
  nbits : Nat
  out : List Nat
deriving Repr, DecidableEq

/-- One turn of the encoder's loop, base91.hpp:86-103. -/
def encStep (s : Enc) (b : Byte) : Enc :=
  let queue := s.queue ||| (b.val <<< s.nbits)
  let nbits := s.nbits + 8
  if nbits > 13 then
    let val := queue &&& 8191
    if val > 88 then
      { queue := queue >>> 13, nbits := nbits - 13, out := s.out ++ [val % 91, val / 91] }
    else
      let val := queue &&& 16383
      { queue := queue >>> 14, nbits := nbits - 14, out := s.out ++ [val % 91, val / 91] }
  else
    { queue := queue, nbits := nbits, out := s.out }

/-- End of the encoder, base91.hpp:105-110: flush of the remaining bits. -/
def encFlush (s : Enc) : List Nat :=
  if s.nbits ≠ 0 then
    if s.nbits > 7 ∨ s.queue > 90 then
      s.out ++ [s.queue % 91, s.queue / 91]
    else
      s.out ++ [s.queue % 91]
  else s.out

/-- Indices in `enctab` of all the characters written by the encoder. -/
def encIndices (bytes : List Byte) : List Nat :=
  encFlush (bytes.foldl encStep { queue := 0, nbits := 0, out := [] })

/-- `base<91>::encode`, base91.hpp:55-114.  `none` is an access outside `enctab`
(undefined behaviour in C++).  Simplification: the look-ups in `enctab` are made at the
end instead of one by one. -/
def encode (bytes : List Byte) : Option (List Byte) :=
  (encIndices bytes).mapM (fun i => enctab[i]?)

/-- Local variables of the decoder (base91.hpp:164-169); `val = -1` is `none`. -/
structure Dec where
  queue : Nat
  nbits : Nat
  val : Option Nat
  out : List Byte
deriving Repr, DecidableEq

/-- `char(x)` (base91.hpp:182 and 192): the low byte. -/
def lowByte (x : Nat) : Byte := ⟨x % 256, Nat.mod_lt _ (by decide)⟩

/-- The `do ... while (nbits > 7)` loop, base91.hpp:181-185.  Simplification: `nbits` is
unsigned and would wrap if it were below 8; the lemmas show it never is. -/
def drain (queue nbits : Nat) (out : List Byte) : Nat × Nat × List Byte :=
  let out' := out ++ [lowByte queue]
  let queue' := queue >>> 8
  let nbits' := nbits - 8
  if nbits' > 7 then drain queue' nbits' out' else (queue', nbits', out')
termination_by nbits

/-- One turn of the decoder's loop once the character has been looked up,
base91.hpp:172-187. -/
def decStep (s : Dec) (d : Nat) : Dec :=
  if d = 91 then s
  else match s.val with
    | none => { s with val := some d }
    | some v =>
      let val := v + d * 91
      let queue := s.queue ||| (val <<< s.nbits)
      let nbits := s.nbits + (if (val &&& 8191) > 88 then 13 else 14)
      let (queue', nbits', out') := drain queue nbits s.out
      { queue := queue', nbits := nbits', val := none, out := out' }

/-- End of the decoder, base91.hpp:190-195. -/
def decFlush (s : Dec) : List Byte :=
  match s.val with
  | none => s.out
  | some v => s.out ++ [lowByte (s.queue ||| (v <<< s.nbits))]

/-- `dectab[*ib++]`, base91.hpp:172 (`dectab` has 256 entries: never out of bounds). -/
def lookup (c : Byte) : Nat := dectab[c.val]!

/-- `base<91>::decode`, base91.hpp:121-196. -/
def decode (text : List Byte) : List Byte :=
  decFlush (text.foldl (fun s c => decStep s (lookup c))
    { queue := 0, nbits := 0, val := none, out := [] })

end Xdyn.Base91
