/-
Model of code/base91x/base91.hpp, `base<64>` (lines 199-301).
Bytes are `Fin 256`; the arithmetic of the C++ expressions is done on `Nat` (C++ promotes
to `int`) and truncated to a byte exactly where C++ stores in an `unsigned char`.
-/

namespace Xdyn.Base64

/-- A byte (`unsigned char`). -/
abbrev Byte := Fin 256

/-- Conversion to `unsigned char` on storage. -/
def toByte (x : Nat) : Byte := ⟨x % 256, Nat.mod_lt _ (by decide)⟩

/-- base91.hpp:203-206 and 257-260, `chars`, as character codes. -/
def chars : List Byte :=
  [65, 66, 67, 68, 69, 70, 71, 72, 73, 74, 75, 76, 77,
   78, 79, 80, 81, 82, 83, 84, 85, 86, 87, 88, 89, 90,
   97, 98, 99, 100, 101, 102, 103, 104, 105, 106, 107, 108, 109,
   110, 111, 112, 113, 114, 115, 116, 117, 118, 119, 120, 121, 122,
   48, 49, 50, 51, 52, 53, 54, 55, 56, 57, 43, 47]

/-- base91.hpp:219-222 and 234-237: the four 6-bit words of three bytes. -/
def words (a b c : Byte) : List Byte :=
  [toByte ((a.val &&& 0xfc) >>> 2),
   toByte (((a.val &&& 0x03) <<< 4) + ((b.val &&& 0xf0) >>> 4)),
   toByte (((b.val &&& 0x0f) <<< 2) + ((c.val &&& 0xc0) >>> 6)),
   toByte (c.val &&& 0x3f)]

/-- `chars[k]` appended to the result for each word `k` (base91.hpp:224-225, 239-240);
`none` is an access out of bounds. -/
def emit (ws : List Byte) : Option (List Byte) := ws.mapM (fun k => chars[k.val]?)

/-- base91.hpp:216-228: the encoder's loop.  `p` holds the `i` pending bytes of
`char_array_3`, `ret` the text written so far. -/
def encLoop : List Byte → List Byte → List Byte → Option (List Byte × List Byte)
  | [], p, ret => some (p, ret)
  | x :: xs, p, ret =>
    match p ++ [x] with
    | [a, b, c] => do encLoop xs [] (ret ++ (← emit (words a b c)))
    | p' => encLoop xs p' ret

/-- `char_array_3[k]` once the entries `j ≥ i` have been zeroed (base91.hpp:231-232). -/
def padded (p : List Byte) (k : Nat) : Byte := p.getD k 0

/-- `base<64>::encode`, base91.hpp:200-247. -/
def encode (bytes : List Byte) : Option (List Byte) := do
  let (p, ret) ← encLoop bytes [] []
  if p.length ≠ 0 then
    let ws := words (padded p 0) (padded p 1) (padded p 2)
    let e ← emit (ws.take (p.length + 1))
    return ret ++ e ++ List.replicate (3 - p.length) 61
  else return ret

/-- `isalnum(c) || c == '+' || c == '/'` in the "C" locale, base91.hpp:270. -/
def isBase64 (c : Byte) : Bool :=
  (48 ≤ c.val && c.val ≤ 57) || (65 ≤ c.val && c.val ≤ 90) || (97 ≤ c.val && c.val ≤ 122)
    || c.val == 43 || c.val == 47

/-- `char_array_4[j] = chars.find(char_array_4[j])`, base91.hpp:274 and 291: `npos`
truncated to an `unsigned char` is 255. -/
def find (c : Byte) : Byte :=
  match chars.findIdx? (· == c) with
  | some k => toByte k
  | none => 255

/-- base91.hpp:276-278 and 293-295: three bytes out of four words. -/
def bytesOf (w0 w1 w2 w3 : Byte) : List Byte :=
  [toByte ((w0.val <<< 2) + ((w1.val &&& 0x30) >>> 4)),
   toByte (((w1.val &&& 0xf) <<< 4) + ((w2.val &&& 0x3c) >>> 2)),
   toByte (((w2.val &&& 0x3) <<< 6) + w3.val)]

/-- base91.hpp:269-284: the decoder's loop; `p` holds the `i` pending characters. -/
def decLoop : List Byte → List Byte → List Byte → List Byte × List Byte
  | [], p, ret => (p, ret)
  | x :: xs, p, ret =>
    if x.val ≠ 61 ∧ isBase64 x = true then
      match p ++ [x] with
      | [a, b, c, d] => decLoop xs [] (ret ++ bytesOf (find a) (find b) (find c) (find d))
      | p' => decLoop xs p' ret
    else (p, ret)

/-- `base<64>::decode`, base91.hpp:255-301.  Entries `j ≥ i` of `char_array_4` are zeroed
(lines 287-288) before being searched in `chars`. -/
def decode (text : List Byte) : List Byte :=
  let (p, ret) := decLoop text [] []
  if p.length ≠ 0 then
    ret ++ (bytesOf (find (padded p 0)) (find (padded p 1)) (find (padded p 2))
      (find (padded p 3))).take (p.length - 1)
  else ret

end Xdyn.Base64
