/-!
# Strings

Rust `String`/`&str` values are modelled as lists of Unicode scalar values. This file holds
the standard-library string functions that the modelled code calls, with the semantics given
in the Rust standard library documentation.
-/

namespace PptRs

/-- A Rust string: the sequence of its `char`s. -/
abbrev Str := List Char

open Lean in
/-- `c!"abc"` is the list literal `['a', 'b', 'c']`. -/
macro:max "c!" s:str : term => do
  let es := s.getString.toList.toArray.map fun c => Syntax.mkCharLit c
  `([$es,*])

/-- `s.starts_with(p)`. -/
def startsWith (p s : Str) : Bool := p.isPrefixOf s

/-- `s.ends_with(p)`. -/
def endsWith (p s : Str) : Bool := p.isSuffixOf s

/-- `s.strip_prefix(p)`. -/
def stripPrefix? : Str → Str → Option Str
  | [], s => some s
  | _ :: _, [] => none
  | p :: ps, c :: cs => if p = c then stripPrefix? ps cs else none

/-- `s.split_once(p)` as a search: the text before the first occurrence of `p` and the text
after it. -/
def splitOnce? (p : Str) : Str → Option (Str × Str)
  | [] => if p = [] then some ([], []) else none
  | c :: cs =>
    match stripPrefix? p (c :: cs) with
    | some rest => some ([], rest)
    | none => (splitOnce? p cs).map fun r => (c :: r.1, r.2)

/-- `s.contains(p)`. -/
def containsStr (p s : Str) : Bool := (splitOnce? p s).isSome

/-- `s.strip_suffix(p)`. -/
def stripSuffix? (p s : Str) : Option Str := (stripPrefix? p.reverse s.reverse).map List.reverse

/-- `s.rsplit_once(c)`: the text before the last occurrence of `c` and the text after it. -/
def rsplitOnceChar? (c : Char) : Str → Option (Str × Str)
  | [] => none
  | x :: xs =>
    match rsplitOnceChar? c xs with
    | some (a, b) => some (x :: a, b)
    | none => if x = c then some ([], xs) else none

/-- `s.trim_start_matches(c)`. -/
def trimStartChar (c : Char) : Str → Str
  | [] => []
  | x :: xs => if x = c then trimStartChar c xs else x :: xs

/-- `s.replace(c, rep)` for a single-character pattern. -/
def replaceChar (c : Char) (rep : Str) (s : Str) : Str :=
  s.flatMap fun d => if d = c then rep else [d]

/-- `s.split(c)` for a single-character separator. -/
def splitChar (sep : Char) : Str → List Str
  | [] => [[]]
  | c :: cs =>
    if c = sep then [] :: splitChar sep cs
    else
      match splitChar sep cs with
      | [] => [[c]]
      | x :: xs => (c :: x) :: xs

/-- `slice.join(sep)`. -/
def joinStr (sep : Str) : List Str → Str
  | [] => []
  | [x] => x
  | x :: y :: xs => x ++ sep ++ joinStr sep (y :: xs)

/-- `char::is_whitespace` (Unicode `White_Space`). -/
def isWs (c : Char) : Bool :=
  let n := c.toNat
  (9 ≤ n && n ≤ 13) || n == 32 || n == 0x85 || n == 0xA0 || n == 0x1680 ||
  (0x2000 ≤ n && n ≤ 0x200A) || n == 0x2028 || n == 0x2029 || n == 0x202F || n == 0x205F ||
  n == 0x3000

/-- `s.trim_start()`. -/
def trimStart (s : Str) : Str := s.dropWhile isWs

/-- `s.trim_end()`. -/
def trimEnd (s : Str) : Str := (s.reverse.dropWhile isWs).reverse

/-- `s.trim()`. -/
def trim (s : Str) : Str := trimEnd (trimStart s)

/-- Number of bytes of a `char` in UTF-8 (`char::len_utf8`). -/
def utf8Size (c : Char) : Nat :=
  if c.toNat < 0x80 then 1 else if c.toNat < 0x800 then 2 else if c.toNat < 0x10000 then 3 else 4

/-- `s.len()`: the length in bytes. -/
def utf8Len (s : Str) : Nat := (s.map utf8Size).sum

/-- Decimal formatting of an unsigned integer (`{}`). -/
def dec (n : Nat) : Str := Nat.toDigits 10 n

/-- Whether a character is an ASCII digit. -/
def isDig (c : Char) : Bool := c.isDigit

/-- Drops one optional leading `+` (accepted by Rust integer parsing). -/
def dropPlus : Str → Str
  | '+' :: t => t
  | t => t

/-- `s.parse::<u32>()`: an optional leading `+`, then at least one ASCII digit, value below
2^32. -/
def parseU32? (s : Str) : Option Nat :=
  let body := dropPlus s
  if body = [] then none
  else if body.all isDig then
    let n := Nat.ofDigitChars 10 body 0
    if n < 4294967296 then some n else none
  else none

end PptRs
