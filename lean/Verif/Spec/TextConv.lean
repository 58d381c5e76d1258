import Verif.Model.Str

/-!
# Specification: readers for JSON strings, backslash escapes, table rows and YAML scalars

Written from the formats' definitions (RFC 8259, CommonMark, GitHub Flavored Markdown, YAML 1.2), not from
the writers.
-/

namespace PptRs.Spec

open PptRs

/-! ### JSON -/

/-- The value of a hexadecimal digit in a JSON escape. -/
def jsonHex (c : Char) : Option Nat :=
  if 48 ≤ c.toNat ∧ c.toNat ≤ 57 then some (c.toNat - 48)
  else if 97 ≤ c.toNat ∧ c.toNat ≤ 102 then some (c.toNat - 87)
  else if 65 ≤ c.toNat ∧ c.toNat ≤ 70 then some (c.toNat - 55)
  else none

/-- `\uXXXX` for a code point that is not a surrogate (surrogate pairs are not read). -/
def jsonUnicode (a b c d : Char) : Option Char :=
  (jsonHex a).bind fun w => (jsonHex b).bind fun x => (jsonHex c).bind fun y => (jsonHex d).bind fun z =>
    let n := ((w * 16 + x) * 16 + y) * 16 + z
    if n < 0xD800 ∨ 0xDFFF < n then some (Char.ofNat n) else none

/-- The single-character escapes. -/
def jsonEscape (c : Char) : Option Char :=
  if c = '"' ∨ c = '\\' ∨ c = '/' then some c
  else if c = 'n' then some '\n'
  else if c = 'r' then some '\r'
  else if c = 't' then some '\t'
  else if c = 'b' then some (Char.ofNat 8)
  else if c = 'f' then some (Char.ofNat 12)
  else none

/-- The characters of a string up to its closing quote, which must be the end of the text. Control
characters below U+0020 are not allowed. -/
def readJsonChars : Str → Option Str
  | ['"'] => some []
  | '\\' :: 'u' :: a :: b :: c :: d :: r =>
    (jsonUnicode a b c d).bind fun x => (readJsonChars r).map (x :: ·)
  | '\\' :: e :: r => (jsonEscape e).bind fun x => (readJsonChars r).map (x :: ·)
  | c :: r => if c = '"' ∨ c = '\\' ∨ c.toNat < 32 then none else (readJsonChars r).map (c :: ·)
  | [] => none

/-- A JSON text that is a string. -/
def readJson : Str → Option Str
  | '"' :: r => readJsonChars r
  | _ => none

/-! ### Markdown -/

/-- Backslash escapes: the character after a backslash stands for itself. -/
def readMarkdown : Str → Str
  | '\\' :: c :: r => c :: readMarkdown r
  | c :: r => c :: readMarkdown r
  | [] => []

/-- The characters that are not escaped. -/
def unescapedChars : Str → Str
  | '\\' :: _ :: r => unescapedChars r
  | c :: r => c :: unescapedChars r
  | [] => []

/-- Splits at every `|` that is not escaped. The second argument is the current cell. -/
def splitCells : Str → Str → List Str
  | cell, '\\' :: c :: r => splitCells (cell ++ ['\\', c]) r
  | cell, c :: r => if c = '|' then cell :: splitCells [] r else splitCells (cell ++ [c]) r
  | cell, [] => [cell]

/-- The texts of the cells of one line of a table whose rows begin and end with `|`: what is before the
first `|` and behind the last one is blank. -/
def readCells (line : Str) : Option (List Str) :=
  match splitCells [] line with
  | first :: rest =>
    if trim first = [] ∧ rest ≠ [] ∧ trim (rest.getLast?.getD []) = [] then
      some (rest.dropLast.map fun c => readMarkdown (trim c))
    else none
  | [] => none

/-- The lines of a text in which every line is ended by a newline. -/
def linesOf (s : Str) : List Str := (splitChar '\n' s).dropLast

/-- A cell of the line below the header. -/
def isDelimiter (c : Str) : Bool := decide (trim c = c!"---")

/-- A table: the header and the rows. The line below the header must have one delimiter per header cell. -/
def readGfm (s : Str) : Option (List (List Str)) :=
  match linesOf s with
  | head :: sep :: rows =>
    match readCells head, readCells sep with
    | some h, some d => if h.length = d.length ∧ d.all isDelimiter then (rows.mapM readCells).map (h :: ·) else none
    | _, _ => none
  | _ => none

/-! ### YAML -/

/-- The rest of a double-quoted scalar on one line, which must be the end of the text: `\"`, `\\` are the only
escapes read. -/
def readYamlChars : Str → Option Str
  | ['"'] => some []
  | '\\' :: c :: r => if c = '"' ∨ c = '\\' then (readYamlChars r).map (c :: ·) else none
  | c :: r => if c = '"' ∨ c = '\\' ∨ c = '\n' then none else (readYamlChars r).map (c :: ·)
  | [] => none

/-- A one-line double-quoted scalar. -/
def readYaml : Str → Option Str
  | '"' :: r => readYamlChars r
  | _ => none

end PptRs.Spec

namespace PptRs.Spec

open PptRs

/-- Reading Markdown line by line: whether a fenced code block is open, and the second-level headings found. -/
def mdScan (st : Bool × List Str) (line : Str) : Bool × List Str :=
  if startsWith c!"```" line then (!st.1, st.2)
  else if !st.1 && startsWith c!"## " line then (st.1, st.2 ++ [line])
  else st

/-- The second-level headings of a Markdown text, outside code blocks. -/
def mdHeadings (s : Str) : List Str := ((linesOf s).foldl mdScan (false, [])).2

end PptRs.Spec
