import Verif.Spec.TablePart
import Verif.Spec.Drawing

/-!
# Specification: text with emphasis

What somebody means who writes `**bold**`, `*italic*`, `__bold__`, `_italic_` and `` `code` ``.
-/

namespace PptRs.Spec

open PptRs

/-- The two characters that emphasise. -/
inductive Mark where
  | star | under
deriving DecidableEq

/-- The character. -/
def Mark.char : Mark → Char
  | .star => '*'
  | .under => '_'

/-- Text with emphasis. -/
inductive Rich where
  | text (s : Str)
  | code (s : Str)
  | bold (m : Mark) (l : List Rich)
  | italic (m : Mark) (l : List Rich)

mutual
/-- How it is written down. -/
def Rich.source : Rich → Str
  | .text s => s
  | .code s => '`' :: s ++ ['`']
  | .bold m l => m.char :: m.char :: sourceL l ++ [m.char, m.char]
  | .italic m l => m.char :: sourceL l ++ [m.char]
/-- One after the other. -/
def sourceL : List Rich → Str
  | [] => []
  | k :: ks => k.source ++ sourceL ks
end

/-- A character as it is shown. -/
structure Shown where
  char : Char
  bold : Bool
  italic : Bool
  code : Bool
deriving DecidableEq

mutual
/-- What is to be shown. Code is shown in its own font, never bold or italic. -/
def Rich.shown (bold italic : Bool) : Rich → List Shown
  | .text s => s.map (⟨·, bold, italic, false⟩)
  | .code s => s.map (⟨·, false, false, true⟩)
  | .bold _ l => shownL true italic l
  | .italic _ l => shownL bold true l
/-- One after the other. -/
def shownL (bold italic : Bool) : List Rich → List Shown
  | [] => []
  | k :: ks => k.shown bold italic ++ shownL bold italic ks
end

/-- The characters with a meaning. -/
def marker (c : Char) : Bool := c = '*' || c = '_' || c = '`'

mutual
/-- Nothing is emphasised twice in the same way, and the texts contain no markers. -/
def Rich.simple (bold italic : Bool) : Rich → Bool
  | .text s => s.all fun c => !marker c
  | .code s => s.all fun c => c ≠ '`'
  | .bold _ l => !bold && simpleL true italic l
  | .italic _ l => !italic && simpleL bold true l
/-- All of a list. -/
def simpleL (bold italic : Bool) : List Rich → Bool
  | [] => true
  | k :: ks => k.simple bold italic && simpleL bold italic ks
end

/-- The signs that are written down. -/
inductive Sign where
  | char (c : Char)
  | code (s : Str)
  /-- begins or ends bold text -/
  | double (m : Mark)
  /-- begins or ends italic text -/
  | single (m : Mark)
deriving DecidableEq

mutual
/-- The signs of a text with emphasis. -/
def Rich.signs : Rich → List Sign
  | .text s => s.map .char
  | .code s => [.code s]
  | .bold m l => .double m :: signsL l ++ [.double m]
  | .italic m l => .single m :: signsL l ++ [.single m]
/-- One after the other. -/
def signsL : List Rich → List Sign
  | [] => []
  | k :: ks => k.signs ++ signsL ks
end

/-- There is no further sign for italic text in the row of the same characters. -/
def apart (m : Mark) : List Sign → Bool
  | .double n :: r => n ≠ m || apart m r
  | .single n :: _ => n ≠ m
  | _ => true

/-- No two signs for italic text stand in the same row of the same characters. -/
def unambiguous : List Sign → Bool
  | [] => true
  | .single m :: r => apart m r && unambiguous r
  | _ :: r => unambiguous r

/-- The text of a run and how it is shown. -/
def runRead (k : Node) : Str × Option RunLook :=
  ((path [c!"a:t"] k).flatMap fun t => textOf (kidsOf t), (child c!"a:rPr" k).map runLook)

end PptRs.Spec
