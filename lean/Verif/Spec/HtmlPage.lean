import Verif.Spec.Html

/-!
# How a browser reads a page

The tokenizer of the HTML standard (section 13.2.5), without comments, without the escapes within scripts, and with the character references
that have a number or one of four names. Text is given character by character.
-/

namespace PptRs.Spec.Page

open PptRs

/-- What is found in a page. -/
inductive Tok where
  | ch (c : Char)
  | start (name : Str) (attrs : List (Str × Str))
  | fin (name : Str)
deriving DecidableEq

/-- A tag that is being read. -/
structure Tag where
  isEnd : Bool
  name : Str
  attrs : List (Str × Str) := []
deriving DecidableEq

/-- The states of the tokenizer. -/
inductive State where
  | data
  | tagOpen
  | endTagOpen
  | bogus
  | tagName (t : Tag)
  | attrGap (t : Tag)
  | attrName (t : Tag) (k : Str)
  | attrAfter (t : Tag) (k : Str)
  | attrValue (t : Tag) (k : Str)
  | quoted (q : Char) (t : Tag) (k v : Str)
  | unquoted (t : Tag) (k v : Str)
  | slash (t : Tag)
  | raw (name : Str)
  | rawLess (name : Str)
  | rawEnd (name buf : Str)
  | ref (back : Option Str) (buf : Str)
deriving DecidableEq

def isBlank (c : Char) : Bool := c = ' ' || c = '\n' || c = '\t' || c = '\r' || c.toNat = 12

/-- The character for a reference. -/
def named (s : Str) : Option Char :=
  if s = c!"amp" then some '&' else if s = c!"lt" then some '<' else if s = c!"gt" then some '>' else if s = c!"quot" then some '"'
  else match s with
    | '#' :: ds => if ds ≠ [] ∧ ds.all Char.isDigit then some (Char.ofNat (ds.foldl (fun n d => n * 10 + (d.toNat - 48)) 0)) else none
    | _ => none

/-- A text between `&` and `;`. -/
def decodeRef (s : Str) : Str :=
  match named s with
  | some c => [c]
  | none => '&' :: s ++ [';']

/-- The references in the value of an attribute, what has been read after `&` being given. -/
def decodeValue : Option Str → Str → Str
  | none, [] => []
  | some b, [] => '&' :: b
  | none, c :: s => if c = '&' then decodeValue (some []) s else c :: decodeValue none s
  | some b, c :: s =>
    if c = ';' then decodeRef b ++ decodeValue none s
    else if c.isAlphanum || c = '#' then decodeValue (some (b ++ [c])) s
    else '&' :: b ++ (if c = '&' then decodeValue (some []) s else c :: decodeValue none s)

/-- The end of a tag. The content of some elements is not markup. -/
def emit (t : Tag) : State × List Tok :=
  if t.isEnd then (.data, [.fin t.name])
  else (if t.name = c!"style" ∨ t.name = c!"script" ∨ t.name = c!"title" then .raw t.name else .data, [.start t.name t.attrs])

/-- The state in which text is read. -/
def textState : Option Str → State
  | none => .data
  | some n => .raw n

/-- One character of text. -/
def stepText (back : Option Str) (c : Char) : State × List Tok :=
  if c = '<' then (match back with | none => .tagOpen | some n => .rawLess n, [])
  else if c = '&' ∧ (back = none ∨ back = some c!"title") then (.ref back [], [])
  else (textState back, [.ch c])

/-- Text before a character that is read again as text. -/
def before (s : Str) (r : State × List Tok) : State × List Tok := (r.1, s.map .ch ++ r.2)

/-- One character. -/
def step : State → Char → State × List Tok
  | .data, c => stepText none c
  | .raw n, c => stepText (some n) c
  | .ref back b, c =>
    if c = ';' then (textState back, (decodeRef b).map .ch)
    else if c.isAlphanum || c = '#' then (.ref back (b ++ [c]), [])
    else before ('&' :: b) (stepText back c)
  | .tagOpen, c =>
    if c = '!' then (.bogus, []) else if c = '/' then (.endTagOpen, []) else if c.isAlpha then (.tagName ⟨false, [c.toLower], []⟩, [])
    else before c!"<" (stepText none c)
  | .endTagOpen, c =>
    if c.isAlpha then (.tagName ⟨true, [c.toLower], []⟩, []) else if c = '>' then (.data, []) else (.bogus, [])
  | .bogus, c => if c = '>' then (.data, []) else (.bogus, [])
  | .tagName t, c =>
    if isBlank c then (.attrGap t, []) else if c = '/' then (.slash t, []) else if c = '>' then emit t
    else (.tagName { t with name := t.name ++ [c.toLower] }, [])
  | .attrGap t, c =>
    if isBlank c then (.attrGap t, []) else if c = '/' then (.slash t, []) else if c = '>' then emit t else (.attrName t [c.toLower], [])
  | .attrName t k, c =>
    if c = '=' then (.attrValue t k, []) else if isBlank c then (.attrAfter t k, [])
    else if c = '/' then (.slash { t with attrs := t.attrs ++ [(k, [])] }, [])
    else if c = '>' then emit { t with attrs := t.attrs ++ [(k, [])] }
    else (.attrName t (k ++ [c.toLower]), [])
  | .attrAfter t k, c =>
    if c = '=' then (.attrValue t k, []) else if isBlank c then (.attrAfter t k, [])
    else if c = '/' then (.slash { t with attrs := t.attrs ++ [(k, [])] }, [])
    else if c = '>' then emit { t with attrs := t.attrs ++ [(k, [])] }
    else (.attrName { t with attrs := t.attrs ++ [(k, [])] } [c.toLower], [])
  | .attrValue t k, c =>
    if isBlank c then (.attrValue t k, []) else if c = '"' ∨ c = '\'' then (.quoted c t k [], [])
    else if c = '>' then emit { t with attrs := t.attrs ++ [(k, [])] }
    else (.unquoted t k [c], [])
  | .quoted q t k v, c =>
    if c = q then (.attrGap { t with attrs := t.attrs ++ [(k, decodeValue none v)] }, []) else (.quoted q t k (v ++ [c]), [])
  | .unquoted t k v, c =>
    if isBlank c then (.attrGap { t with attrs := t.attrs ++ [(k, decodeValue none v)] }, [])
    else if c = '>' then emit { t with attrs := t.attrs ++ [(k, decodeValue none v)] }
    else (.unquoted t k (v ++ [c]), [])
  | .slash t, c => if c = '>' then emit t else if isBlank c then (.attrGap t, []) else (.attrName t [c.toLower], [])
  | .rawLess n, c => if c = '/' then (.rawEnd n [], []) else before c!"<" (stepText (some n) c)
  | .rawEnd n b, c =>
    if c = '>' ∧ b.map Char.toLower = n then (.data, [.fin n])
    else if isBlank c ∧ b.map Char.toLower = n then (.attrGap ⟨true, n, []⟩, [])
    else if c.isAlpha then (.rawEnd n (b ++ [c]), [])
    else before (c!"</" ++ b) (stepText (some n) c)

/-- A text, from a state on. -/
def run (s : State) : Str → State × List Tok
  | [] => (s, [])
  | c :: r => ((run (step s c).1 r).1, (step s c).2 ++ (run (step s c).1 r).2)

/-- What is found in a page. -/
def read (s : Str) : List Tok := (run .data s).2

end PptRs.Spec.Page

namespace PptRs.Spec

mutual
/-- What a tree consists of. -/
def Html.toks : Html → List Page.Tok
  | .text s => s.map .ch
  | .void n a => [.start n a]
  | .elem n a kids => .start n a :: toksL kids ++ [.fin n]
def toksL : List Html → List Page.Tok
  | [] => []
  | h :: t => h.toks ++ toksL t
end

end PptRs.Spec
