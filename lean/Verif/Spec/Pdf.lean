import Verif.Model.Str
import Verif.Model.Package

/-!
# Reading PDF content streams

ISO 32000-1, 7.2 (lexical conventions), 7.3.4.2 (literal strings), 7.8.2 (content streams) and 9.4 (text objects).
Hexadecimal strings, arrays and dictionaries are not read: a stream with them is rejected.
-/

namespace PptRs.PdfRead

open PptRs

/-- Tokens: numbers, names without the slash, strings and operators. -/
inductive Tok where
  | num (s : Bytes)
  | name (s : Bytes)
  | str (s : Bytes)
  | op (s : Bytes)
deriving DecidableEq

/-- White space, ISO 32000-1 7.2.2, table 1. -/
def isSpace (b : UInt8) : Bool := b = 0 || b = 9 || b = 10 || b = 12 || b = 13 || b = 32

/-- Delimiters, ISO 32000-1 7.2.2, table 2: `( ) < > [ ] { } / %`. -/
def isDelim (b : UInt8) : Bool :=
  b = 40 || b = 41 || b = 60 || b = 62 || b = 91 || b = 93 || b = 123 || b = 125 || b = 47 || b = 37

/-- Characters of numbers: digits, `+`, `-` and `.`. -/
def isNumeric (b : UInt8) : Bool := (48 ≤ b && b ≤ 57) || b = 43 || b = 45 || b = 46

/-- The token that a run of regular characters is, with the slash if it starts with one. -/
def tokOf : Bytes → Tok
  | 47 :: r => .name r
  | s => if s.all isNumeric then .num s else .op s

/-- Where the reader is. -/
inductive Mode where
  | idle
  | word (acc : Bytes)
  | comment
  /-- in a string; `cr`: the last byte was a carriage return -/
  | str (depth : Nat) (acc : Bytes) (cr : Bool)
  /-- after a backslash -/
  | esc (depth : Nat) (acc : Bytes)
  /-- in an octal number of `n` digits -/
  | octal (depth : Nat) (acc : Bytes) (n value : Nat)

/-- After the end of a token. -/
def startMode (b : UInt8) : Option Mode :=
  if isSpace b then some .idle
  else if b = 40 then some (.str 0 [] false)
  else if b = 37 then some .comment
  else if b = 47 then some (.word [47])
  else if isDelim b then none
  else some (.word [b])

/-- One byte in a string: the next mode, or the end of the string. -/
def strStep (depth : Nat) (acc : Bytes) (cr : Bool) (b : UInt8) : Mode ⊕ Bytes :=
  if cr && b = 10 then .inl (.str depth acc false)
  else if b = 92 then .inl (.esc depth acc)
  else if b = 40 then .inl (.str (depth + 1) (acc ++ [b]) false)
  else if b = 41 then
    match depth with
    | 0 => .inr acc
    | d + 1 => .inl (.str d (acc ++ [b]) false)
  else if b = 13 then .inl (.str depth (acc ++ [10]) true)
  else .inl (.str depth (acc ++ [b]) false)

/-- One byte after a backslash, ISO 32000-1 7.3.4.2, table 3. -/
def escStep (depth : Nat) (acc : Bytes) (b : UInt8) : Mode :=
  if b = 110 then .str depth (acc ++ [10]) false
  else if b = 114 then .str depth (acc ++ [13]) false
  else if b = 116 then .str depth (acc ++ [9]) false
  else if b = 98 then .str depth (acc ++ [8]) false
  else if b = 102 then .str depth (acc ++ [12]) false
  else if 48 ≤ b && b ≤ 55 then .octal depth acc 1 (b.toNat - 48)
  else if b = 10 then .str depth acc false
  else if b = 13 then .str depth acc true
  else .str depth (acc ++ [b]) false

/-- The tokens of a stream. -/
def lex : Mode → Bytes → Option (List Tok)
  | .idle, [] => some []
  | .word acc, [] => some [tokOf acc]
  | .comment, [] => some []
  | .str .., [] => none
  | .esc .., [] => none
  | .octal .., [] => none
  | .idle, b :: r => (startMode b).bind fun m => lex m r
  | .word acc, b :: r =>
    if isSpace b || isDelim b then ((startMode b).bind fun m => lex m r).map (tokOf acc :: ·)
    else lex (.word (acc ++ [b])) r
  | .comment, b :: r => if b = 10 || b = 13 then lex .idle r else lex .comment r
  | .str d acc cr, b :: r =>
    match strStep d acc cr b with
    | .inl m => lex m r
    | .inr s => (lex .idle r).map (.str s :: ·)
  | .esc d acc, b :: r => lex (escStep d acc b) r
  | .octal d acc n v, b :: r =>
    if n < 3 && 48 ≤ b && b ≤ 55 then lex (.octal d acc (n + 1) (v * 8 + (b.toNat - 48))) r
    else
      match strStep d (acc ++ [v.toUInt8]) false b with
      | .inl m => lex m r
      | .inr s => (lex .idle r).map (.str s :: ·)

/-- The operators with their operands. -/
def group (pending : List Tok) : List Tok → Option (List (List Tok × Bytes))
  | [] => if pending = [] then some [] else none
  | .op o :: ts => (group [] ts).map ((pending, o) :: ·)
  | t :: ts => group (pending ++ [t]) ts

/-- Reading a content stream. -/
def readStream (b : Bytes) : Option (List (List Tok × Bytes)) := (lex .idle b).bind (group [])

/-- The part of the graphics state that matters here (ISO 32000-1 8.4): fill colour, font and its size, text
position and the current path. -/
structure GState where
  color : List Bytes := []
  font : Bytes := []
  size : Bytes := []
  x : Bytes := []
  y : Bytes := []
  path : List Bytes := []

/-- What is painted: a text or a filled box. -/
inductive Mark where
  | text (color : List Bytes) (font size x y : Bytes) (text : Bytes)
  | box (color : List Bytes) (sides : List Bytes)
deriving DecidableEq

/-- One operator: `rg`, `Tf`, `Td` (directly after `BT`), `Tj`, `re` and `f`. -/
def opStep (g : GState) (args : List Tok) (o : Bytes) : GState × List Mark :=
  match args with
  | [.num a, .num b, .num c] => if o = [114, 103] then ({ g with color := [a, b, c] }, []) else (g, [])
  | [.name f, .num s] => if o = [84, 102] then ({ g with font := f, size := s }, []) else (g, [])
  | [.num a, .num b] => if o = [84, 100] then ({ g with x := a, y := b }, []) else (g, [])
  | [.str t] => if o = [84, 106] then (g, [.text g.color g.font g.size g.x g.y t]) else (g, [])
  | [.num a, .num b, .num c, .num d] => if o = [114, 101] then ({ g with path := [a, b, c, d] }, []) else (g, [])
  | [] => if o = [102] then ({ g with path := [] }, [.box g.color g.path]) else (g, [])
  | _ => (g, [])

/-- What the operators of a stream paint, in order. -/
def marksFrom : GState → List (List Tok × Bytes) → List Mark
  | _, [] => []
  | g, (a, o) :: r => (opStep g a o).2 ++ marksFrom (opStep g a o).1 r

/-- What a content stream paints. -/
def readMarks (b : Bytes) : Option (List Mark) := (readStream b).map (marksFrom {})

/-- What becomes of the bytes of a text in a string: a carriage return with or without a line feed is read as a
line feed. `cr`: the last byte was a carriage return. -/
def normalEol : Bool → Bytes → Bytes
  | _, [] => []
  | cr, b :: r =>
    if cr && b = 10 then normalEol false r
    else if b = 13 then 10 :: normalEol true r
    else b :: normalEol false r

/-- Roman numerals: the value of a symbol. -/
def romanDigit : Char → Nat
  | 'I' => 1
  | 'V' => 5
  | 'X' => 10
  | 'L' => 50
  | 'C' => 100
  | 'D' => 500
  | 'M' => 1000
  | _ => 0

/-- The value of a Roman numeral: a symbol before a larger one is subtracted. -/
def romanValue : Str → Int
  | [] => 0
  | [c] => romanDigit c
  | c :: d :: r => (if romanDigit c < romanDigit d then - (romanDigit c : Int) else romanDigit c) + romanValue (d :: r)

/-- The characters of the standard Latin encoding (ISO 32000-1, D.2) for the bytes from 32 to 126 and for E2, 80 and A2
(hexadecimal), of which the first two have no character. Other bytes are not in this table. -/
def standardEncoding (b : UInt8) : Option Char :=
  if 32 ≤ b && b ≤ 126 then some (if b = 39 then '’' else if b = 96 then '‘' else Char.ofNat b.toNat)
  else if b = 162 then some '¢'
  else none

end PptRs.PdfRead
