import Verif.Model.Package

/-!
# Specification: base64 (RFC 4648, section 4)
-/

namespace PptRs.Spec

open PptRs

/-- The character for a number below 64. -/
def b64Digit (n : Nat) : Char :=
  if n < 26 then Char.ofNat (65 + n)
  else if n < 52 then Char.ofNat (97 + (n - 26))
  else if n < 62 then Char.ofNat (48 + (n - 52))
  else if n = 62 then '+' else '/'

/-- Three bytes are read as one number of 24 bits, which is written with four digits of six bits. A
last group of one or two bytes is extended by zero bits and written with two or three digits, and
`=` up to four characters. -/
def base64 : Bytes → Str
  | [] => []
  | [x] => let n := x.toNat * 16
    [b64Digit (n / 64), b64Digit (n % 64), '=', '=']
  | [x, y] => let n := (x.toNat * 256 + y.toNat) * 4
    [b64Digit (n / 4096), b64Digit (n / 64 % 64), b64Digit (n % 64), '=']
  | x :: y :: z :: rest => let n := (x.toNat * 256 + y.toNat) * 256 + z.toNat
    [b64Digit (n / 262144), b64Digit (n / 4096 % 64), b64Digit (n / 64 % 64), b64Digit (n % 64)]
      ++ base64 rest

/-- `t` is the text `s` with blanks and line breaks put in between, as in wrapped base64. -/
inductive Wrapped : Str → Str → Prop where
  | nil : Wrapped [] []
  | keep (c : Char) {s t : Str} : Wrapped s t → Wrapped (c :: s) (c :: t)
  | wrap {c : Char} (h : c = '\n' ∨ c = '\r' ∨ c = ' ') {s t : Str} : Wrapped s t → Wrapped s (c :: t)

/-- A text of white space only. -/
def Blank (s : Str) : Prop := ∀ c ∈ s, isWs c = true

end PptRs.Spec
