import Verif.Model.Str

/-!
# Colours

Panics of string slicing are the result `none` of the outer `Option`.
-/

namespace PptRs

/-- The text of the first `k` bytes and the rest; `none` if byte `k` is not the start of a character
or the text is shorter. -/
def splitBytes : Nat → Str → Option (Str × Str)
  | 0, s => some ([], s)
  | _ + 1, [] => none
  | k + 1, c :: s => if utf8Size c ≤ k + 1 then (splitBytes (k + 1 - utf8Size c) s).map fun p => (c :: p.1, p.2) else none
termination_by _ s => s.length

/-- `&s[a..b]`; `none` is the panic. -/
def byteSlice (s : Str) (a b : Nat) : Option Str :=
  (splitBytes a s).bind fun p => (splitBytes (b - a) p.2).map (·.1)

/-- `char::to_digit(16)`. -/
def hexDigit? (c : Char) : Option Nat :=
  if '0' ≤ c ∧ c ≤ '9' then some (c.toNat - 48)
  else if 'a' ≤ c ∧ c ≤ 'f' then some (c.toNat - 87)
  else if 'A' ≤ c ∧ c ≤ 'F' then some (c.toNat - 55)
  else none

/-- The digits of a hexadecimal number. -/
def hexDigits (acc : Nat) : Str → Option Nat
  | [] => some acc
  | c :: cs => (hexDigit? c).bind fun d => hexDigits (acc * 16 + d) cs

/-- `u8::from_str_radix(s, 16)`: an optional `+`, then at least one digit, value at most 255. -/
def parseHexU8 (s : Str) : Option UInt8 :=
  let body := dropPlus s
  if body = [] then none
  else (hexDigits 0 body).bind fun n => if n < 256 then some n.toUInt8 else none

/-- src/elements/color.rs 9-13. -/
structure RgbColor where
  r : UInt8
  g : UInt8
  b : UInt8
deriving DecidableEq, Repr

/-- `RgbColor::from_hex`, src/elements/color.rs 22-31. The outer `none` is a panic. A slice that
would panic is only reached if the digits before it were accepted. -/
def RgbColor.fromHex (hex : Str) : Option (Option RgbColor) :=
  let hex := trimStartChar '#' hex
  if utf8Len hex ≠ 6 then some none
  else
    (byteSlice hex 0 2).bind fun x =>
    match parseHexU8 x with
    | none => some none
    | some r =>
      (byteSlice hex 2 4).bind fun y =>
      match parseHexU8 y with
      | none => some none
      | some g =>
        (byteSlice hex 4 6).bind fun z =>
        match parseHexU8 z with
        | none => some none
        | some b => some (some ⟨r, g, b⟩)

/-- An upper-case hexadecimal digit. -/
def hexUpper (n : Nat) : Char := if n < 10 then Char.ofNat (48 + n) else Char.ofNat (55 + n)

/-- `format!("{:02X}", b)`. -/
def hex2 (b : UInt8) : Str := [hexUpper (b.toNat / 16), hexUpper (b.toNat % 16)]

/-- `RgbColor::to_hex`, src/elements/color.rs 34-36. -/
def RgbColor.toHex (c : RgbColor) : Str := hex2 c.r ++ hex2 c.g ++ hex2 c.b

/-- src/helpers/colors.rs 13-18. -/
structure ColorValue where
  r : UInt8
  g : UInt8
  b : UInt8
  a : UInt8
deriving DecidableEq, Repr

/-- `ColorValue::from_hex`, src/helpers/colors.rs 32-48; `none` is a panic. -/
def ColorValue.fromHex (hex : Str) : Option ColorValue :=
  let hex := trimStartChar '#' hex
  if utf8Len hex = 6 then
    (byteSlice hex 0 2).bind fun x => (byteSlice hex 2 4).bind fun y => (byteSlice hex 4 6).bind fun z =>
      some ⟨(parseHexU8 x).getD 0, (parseHexU8 y).getD 0, (parseHexU8 z).getD 0, 255⟩
  else if utf8Len hex = 8 then
    (byteSlice hex 0 2).bind fun x => (byteSlice hex 2 4).bind fun y => (byteSlice hex 4 6).bind fun z =>
      (byteSlice hex 6 8).bind fun w =>
        some ⟨(parseHexU8 x).getD 0, (parseHexU8 y).getD 0, (parseHexU8 z).getD 0, (parseHexU8 w).getD 255⟩
  else some ⟨0, 0, 0, 255⟩

/-- `ColorValue::to_hex`, src/helpers/colors.rs 51-53. -/
def ColorValue.toHex (c : ColorValue) : Str := hex2 c.r ++ hex2 c.g ++ hex2 c.b

/-- `ColorValue::to_hex_alpha`, src/helpers/colors.rs 56-58. -/
def ColorValue.toHexAlpha (c : ColorValue) : Str := hex2 c.r ++ hex2 c.g ++ hex2 c.b ++ hex2 c.a

end PptRs
