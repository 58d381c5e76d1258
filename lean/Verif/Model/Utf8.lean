import Verif.Model.Package

/-!
# UTF-8

`String::into_bytes` and `String::from_utf8_lossy`.
-/

namespace PptRs

/-- The UTF-8 encoding of one character. -/
def encodeChar (c : Char) : Bytes :=
  let n := c.toNat
  if n < 0x80 then [n.toUInt8]
  else if n < 0x800 then [(0xC0 + n / 64).toUInt8, (0x80 + n % 64).toUInt8]
  else if n < 0x10000 then
    [(0xE0 + n / 4096).toUInt8, (0x80 + n / 64 % 64).toUInt8, (0x80 + n % 64).toUInt8]
  else
    [(0xF0 + n / 262144).toUInt8, (0x80 + n / 4096 % 64).toUInt8, (0x80 + n / 64 % 64).toUInt8,
      (0x80 + n % 64).toUInt8]

/-- `String::into_bytes`. -/
def encode (s : Str) : Bytes := s.flatMap encodeChar

/-- A continuation byte and its value. -/
def cont? (b : UInt8) : Option Nat := if 0x80 ≤ b.toNat ∧ b.toNat < 0xC0 then some (b.toNat - 0x80) else none

/-- A scalar value that needs at least `lo`. -/
def scalar? (lo n : Nat) : Option Char := if lo ≤ n ∧ n.isValidChar then some (Char.ofNat n) else none

/-- The character at the start of some bytes and the number of further bytes it takes. -/
def decodeChar? (b : UInt8) (r : Bytes) : Option (Char × Nat) :=
  if b.toNat < 0x80 then (scalar? 0 b.toNat).map fun c => (c, 0)
  else if 0xC0 ≤ b.toNat ∧ b.toNat < 0xE0 then
    (r[0]?.bind cont?).bind fun x => (scalar? 0x80 ((b.toNat - 0xC0) * 64 + x)).map fun c => (c, 1)
  else if 0xE0 ≤ b.toNat ∧ b.toNat < 0xF0 then
    (r[0]?.bind cont?).bind fun x => (r[1]?.bind cont?).bind fun y =>
      (scalar? 0x800 ((b.toNat - 0xE0) * 4096 + x * 64 + y)).map fun c => (c, 2)
  else if 0xF0 ≤ b.toNat then
    (r[0]?.bind cont?).bind fun x => (r[1]?.bind cont?).bind fun y => (r[2]?.bind cont?).bind fun z =>
      (scalar? 0x10000 ((b.toNat - 0xF0) * 262144 + x * 4096 + y * 64 + z)).map fun c => (c, 3)
  else none

/-- `String::from_utf8_lossy`. Each undecodable byte becomes U+FFFD; the standard library uses one
U+FFFD for the bytes of a truncated character, which makes no difference here: the texts that the
code looks for are ASCII. -/
def decodeLossyFuel : Nat → Bytes → Str
  | 0, _ => []
  | _ + 1, [] => []
  | fuel + 1, b :: r =>
    match decodeChar? b r with
    | some (c, k) => c :: decodeLossyFuel fuel (r.drop k)
    | none => Char.ofNat 0xFFFD :: decodeLossyFuel fuel r

/-- `String::from_utf8_lossy`; the fuel is the number of bytes. -/
def decodeLossy (b : Bytes) : Str := decodeLossyFuel b.length b

/-- `Package::get_part_string`, src/opc/package.rs 106-110. -/
def Package.getPartString (p : Package) (path : Str) : Option Str :=
  (Package.getPart p path).map decodeLossy

end PptRs
