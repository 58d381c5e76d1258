import Verif.Spec.XmlElement
import Verif.Model.SlideText

/-!
# Specification: what minification does to texts

In a text between two tags, minification makes every blank a space, drops blanks after a space, and
drops one blank before the next tag.
-/

namespace PptRs.Spec

open PptRs

/-- XML white space. -/
def blankChar (c : Char) : Bool := c = ' ' || c = '\t' || c = '\n' || c = '\r'

/-- Blanks after a space are dropped, others become spaces; `p` is the character before. -/
def spaced : Char → Str → Str
  | _, [] => []
  | p, c :: t =>
    if blankChar c then if p = ' ' then spaced c t else ' ' :: spaced c t
    else c :: spaced c t

/-- Whether the last character is a space, a line feed or a tab. -/
def endsBlank (t : Str) : Bool :=
  match t.getLast? with
  | some c => c = ' ' || c = '\n' || c = '\t'
  | none => false

/-- A text after minification. -/
def squeeze (t : Str) : Str :=
  if endsBlank t then (spaced '>' t).dropLast else spaced '>' t

/-- A text as a reader that ignores white space between tags sees it after minification. -/
def tidy (t : Str) : Str := if BlankText t then t else squeeze t

/-- The words of a text. -/
def wordsOf : Str → List Str
  | [] => []
  | c :: t =>
    if blankChar c then wordsOf t
    else
      match t with
      | [] => [[c]]
      | d :: _ =>
        if blankChar d then [c] :: wordsOf t
        else
          match wordsOf t with
          | [] => [[c]]
          | w :: ws => (c :: w) :: ws

/-- Texts that minification leaves as they are: the only blanks are single spaces, and there is none at
the end. -/
def Tidied : Str → Prop
  | [] => True
  | [c] => blankChar c = false
  | c :: d :: t => (blankChar c = true → c = ' ' ∧ blankChar d = false) ∧ Tidied (d :: t)

instance decTidied : ∀ t, Decidable (Tidied t)
  | [] => isTrue trivial
  | [c] => inferInstanceAs (Decidable (blankChar c = false))
  | c :: d :: t => @instDecidableAnd _ _ inferInstance (decTidied (d :: t))

mutual
/-- Applies a function to all texts. -/
def mapNode (f : Str → Str) : Node → Node
  | .text t => .text (f t)
  | .elem n as ks => .elem n as (mapNodes f ks)
/-- Applies a function to all texts of some nodes. -/
def mapNodes (f : Str → Str) : List Node → List Node
  | [] => []
  | k :: ks => mapNode f k :: mapNodes f ks
end

/-- A cell with a changed text. -/
def mapCell (f : Str → Str) (c : CellIn) : CellIn := { c with text := f c.text }

/-- A table with changed texts. -/
def mapTable (f : Str → Str) (t : TableIn) : TableIn :=
  { t with rows := t.rows.map fun r => { r with cells := r.cells.map (mapCell f) } }

/-- A slide with changed texts. -/
def mapSlide (f : Str → Str) (s : SlideText) : SlideText :=
  { s with title := f s.title
           content := s.content.map f
           bullets := s.bullets.map fun b => { b with text := f b.text }
           table := s.table.map (mapTable f) }

end PptRs.Spec
