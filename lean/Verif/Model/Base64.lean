import Verif.Model.Utf8

/-!
# Base64
-/

namespace PptRs

/-- `ALPHABET`, src/export/html.rs 239. -/
def base64Alphabet : Str := c!"ABCDEFGHIJKLMNOPQRSTUVWXYZabcdefghijklmnopqrstuvwxyz0123456789+/"

/-- `ALPHABET[b as usize] as char`. The index is below 64 in all uses; `'?'` stands for the panic. -/
def base64Char (b : UInt8) : Char := (base64Alphabet[b.toNat]?).getD '?'

/-- One round of `base64_encode`, src/export/html.rs 244-272: the buffer and the number of bytes
in it. -/
def base64Group (x y z : UInt8) (len : Nat) : Str :=
  let b0 := (x >>> 2) &&& 0x3F
  let b1 := ((x &&& 0x03) <<< 4) ||| ((y >>> 4) &&& 0x0F)
  let b2 := ((y &&& 0x0F) <<< 2) ||| ((z >>> 6) &&& 0x03)
  let b3 := z &&& 0x3F
  [base64Char b0, base64Char b1, if len > 1 then base64Char b2 else '=',
    if len > 2 then base64Char b3 else '=']

/-- `base64_encode`, src/export/html.rs 238-278. -/
def base64Encode : Bytes → Str
  | [] => []
  | [x] => base64Group x 0 0 1
  | [x, y] => base64Group x y 0 2
  | x :: y :: z :: rest => base64Group x y z 3 ++ base64Encode rest

/-- `DECODE_TABLE`, src/generator/images.rs 324-333. -/
def base64Table : List Int := [
  -1, -1, -1, -1, -1, -1, -1, -1, -1, -1, -1, -1, -1, -1, -1, -1,
  -1, -1, -1, -1, -1, -1, -1, -1, -1, -1, -1, -1, -1, -1, -1, -1,
  -1, -1, -1, -1, -1, -1, -1, -1, -1, -1, -1, 62, -1, -1, -1, 63,
  52, 53, 54, 55, 56, 57, 58, 59, 60, 61, -1, -1, -1, -1, -1, -1,
  -1,  0,  1,  2,  3,  4,  5,  6,  7,  8,  9, 10, 11, 12, 13, 14,
  15, 16, 17, 18, 19, 20, 21, 22, 23, 24, 25, -1, -1, -1, -1, -1,
  -1, 26, 27, 28, 29, 30, 31, 32, 33, 34, 35, 36, 37, 38, 39, 40,
  41, 42, 43, 44, 45, 46, 47, 48, 49, 50, 51, -1, -1, -1, -1, -1]

/-- The value of one byte and the padding it counts for; `none` as argument is a position behind the
end. `none` as result is the error. src/generator/images.rs 344-356. -/
def base64Value (b : Option UInt8) : Option (UInt8 × Nat) :=
  match b with
  | none => some (0, 1)
  | some b =>
    if b = 61 then some (0, 1)
    else if b.toNat < 128 ∧ 0 ≤ (base64Table[b.toNat]?).getD (-1) then
      some (((base64Table[b.toNat]?).getD (-1)).toNat.toUInt8, 0)
    else none

/-- The bytes written in one round of `base64_decode`, src/generator/images.rs 358-364. -/
def base64Bytes (a b c d : UInt8) (pad : Nat) : Bytes :=
  [(a <<< 2) ||| (b >>> 4)] ++ (if pad < 2 then [(b <<< 4) ||| (c >>> 2)] else []) ++
    (if pad < 1 then [(c <<< 6) ||| d] else [])

/-- One round of `base64_decode`, src/generator/images.rs 341-364. -/
def base64Round (a b c d : Option UInt8) : Option Bytes :=
  (base64Value a).bind fun a => (base64Value b).bind fun b => (base64Value c).bind fun c =>
    (base64Value d).bind fun d => some (base64Bytes a.1 b.1 c.1 d.1 (a.2 + b.2 + c.2 + d.2))

/-- The loop of `base64_decode`, src/generator/images.rs 339-367. -/
def base64Loop : Bytes → Option Bytes
  | [] => some []
  | [a] => base64Round a none none none
  | [a, b] => base64Round a b none none
  | [a, b, c] => base64Round a b c none
  | a :: b :: c :: d :: rest => (base64Round a b c d).bind fun x => (base64Loop rest).map (x ++ ·)

/-- `trim().replace(['\n', '\r', ' '], "")`, src/generator/images.rs 335. -/
def base64Clean (s : Str) : Str := (trim s).filter fun c => !(c = '\n' || c = '\r' || c = ' ')

/-- `base64_decode`, src/generator/images.rs 322-370. -/
def base64Decode (s : Str) : Option Bytes := base64Loop (encode (base64Clean s))

end PptRs
