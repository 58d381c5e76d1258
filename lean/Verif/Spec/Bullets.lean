import Verif.Spec.SlideText

/-!
# Specification: how bullets look
-/

namespace PptRs.Spec
open PptRs

/-- A paragraph as a reader of ECMA-376 21.1.2 sees it. -/
structure BulletRead where
  text : List Str
  level : Option Str
  margin : Option Str
  indent : Option Str
  /-- the bullet character, the numbering, or the absence of both -/
  char : Option Str
  number : Option Str
  plain : Bool
  size : Option Str
  bold : Option Str
  italic : Option Str
  underline : Option Str
  strike : Option Str
  baseline : Option Str
  color : Option Str
  highlight : Option Str
  font : Option Str
deriving DecidableEq

/-- An attribute of the first element with a name. -/
def firstAttr (name key : Str) (p : Node) : Option Str := (elems name p).head?.bind (attrOf key)

/-- The colour in the first element with a name. -/
def firstColor (name : Str) (p : Node) : Option Str := (elems name p).head?.bind (firstAttr c!"a:srgbClr" c!"val")

def readBullet (p : Node) : BulletRead where
  text := runs p
  level := firstAttr c!"a:pPr" c!"lvl" p
  margin := firstAttr c!"a:pPr" c!"marL" p
  indent := firstAttr c!"a:pPr" c!"indent" p
  char := firstAttr c!"a:buChar" c!"char" p
  number := firstAttr c!"a:buAutoNum" c!"type" p
  plain := !(elems c!"a:buNone" p).isEmpty
  size := firstAttr c!"a:rPr" c!"sz" p
  bold := firstAttr c!"a:rPr" c!"b" p
  italic := firstAttr c!"a:rPr" c!"i" p
  underline := firstAttr c!"a:rPr" c!"u" p
  strike := firstAttr c!"a:rPr" c!"strike" p
  baseline := firstAttr c!"a:rPr" c!"baseline" p
  color := firstColor c!"a:solidFill" p
  highlight := firstColor c!"a:highlight" p
  font := firstAttr c!"a:latin" c!"typeface" p

/-- The paragraphs of a document with a level. -/
def bulletsOf (doc : List Node) : List BulletRead :=
  ((elemsL c!"a:p" doc).map readBullet).filter fun b => b.level.isSome

/-- The numbering scheme of a style, ST_TextAutonumberScheme. -/
def numbering : BulletStyle → Option Str
  | .number => some c!"arabicPeriod"
  | .letterLower => some c!"alphaLcPeriod"
  | .letterUpper => some c!"alphaUcPeriod"
  | .romanLower => some c!"romanLcPeriod"
  | .romanUpper => some c!"romanUcPeriod"
  | _ => none

/-- The bullet character of a style. -/
def bulletChar : BulletStyle → Option Str
  | .bullet => some c!"•"
  | .custom c => some [c]
  | _ => none

/-- The flag attribute of ST_Boolean. -/
def onOff (b : Bool) : Str := if b then c!"1" else c!"0"

/-- A colour without `#` in front, in capitals. -/
def plainColor (c : Str) : Str := (c.dropWhile (· = '#')).map Char.toUpper

/-- How a bullet should look on a slide with the text size `size` (in points): half an inch further in per level, the
slide's format and the bullet's own together. -/
def look (s : SlideText) (size : Nat) (b : BulletPoint) : BulletRead :=
  let f := b.format.getD {}
  { text := [b.text]
    level := some (dec b.level)
    margin := some (dec (457200 * (2 * b.level + 1)))
    indent := some (c!"-" ++ dec (457200 * (b.level + 1)))
    char := bulletChar b.style
    number := numbering b.style
    plain := decide (b.style = .none)
    size := some (dec (100 * f.fontSize.getD (s.contentSize.getD size)))
    bold := some (onOff (f.bold || s.contentBold))
    italic := some (onOff (f.italic || s.contentItalic))
    underline := if f.underline then some c!"sng" else none
    strike := if f.strikethrough then some c!"sngStrike" else none
    baseline := if f.subscript then some c!"-25000" else if f.superscript then some c!"30000" else none
    color := (f.color.or s.contentColor).map plainColor
    highlight := f.highlight.map plainColor
    font := f.fontFamily }

/-- The level of an added bullet. -/
def addedLevel : BulletOp → Nat
  | .sub _ => 1
  | _ => 0

/-- Its style, on a slide with the style `d`. -/
def addedStyle (d : BulletStyle) : BulletOp → BulletStyle
  | .styled _ st => st
  | _ => d

end PptRs.Spec
