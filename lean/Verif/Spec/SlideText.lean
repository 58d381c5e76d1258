import Verif.Model.SlideText
import Verif.Spec.XmlQuery

/-!
# Specification: what a slide should contain
-/

namespace PptRs

open PptRs.Spec

/-- The colours and the font of text properties contain no markup. -/
structure TextProps.Safe (p : TextProps) : Prop where
  color : ∀ c ∈ p.color, Plain c
  highlight : ∀ c ∈ p.highlight, Plain c
  font : ∀ c ∈ p.fontFamily, Plain c

/-- A bullet character that can be written. -/
def BulletStyle.Safe (b : BulletStyle) : Prop := ∀ c, b = .custom c → Plain [c]

/-- The colours and the font of a format contain no markup. -/
structure BulletTextFormat.Safe (f : BulletTextFormat) : Prop where
  color : ∀ c ∈ f.color, Plain c
  highlight : ∀ c ∈ f.highlight, Plain c
  font : ∀ c ∈ f.fontFamily, Plain c

/-- The style and the format of a bullet contain no markup. -/
structure BulletPoint.Safe (b : BulletPoint) : Prop where
  style : b.style.Safe
  format : ∀ f ∈ b.format, f.Safe

/-- The colours of a cell contain no markup. -/
structure CellIn.Safe (c : CellIn) : Prop where
  color : ∀ x ∈ c.textColor, Plain x
  background : ∀ x ∈ c.backgroundColor, Plain x

/-- The colours of a table contain no markup. -/
def TableIn.Safe (t : TableIn) : Prop := ∀ r ∈ t.rows, ∀ c ∈ r.cells, c.Safe

/-- No markup in the colours, fonts and bullet characters of a slide. There is no condition on the
title, the bullet texts and the cell texts. -/
structure SlideText.Safe (s : SlideText) : Prop where
  titleColor : ∀ c ∈ s.titleColor, Plain c
  contentColor : ∀ c ∈ s.contentColor, Plain c
  bulletStyle : s.bulletStyle.Safe
  bullets : ∀ b ∈ s.bullets, b.Safe
  table : ∀ t ∈ s.table, t.Safe

/-- The bullets of a slide, as a user thinks of them: the bullet points that were added, or the
plain lines if there are no bullet points. -/
def SlideText.texts (s : SlideText) : List Str :=
  if s.bullets = [] then s.content else s.bullets.map (·.text)

/-- The text of a cell: nothing if it is covered by a merged cell. -/
def CellIn.shown (c : CellIn) : List Str :=
  if c.hMerge || c.vMerge || c.text = [] then [] else [c.text]

/-- The boxes that a slide should have: the name of each with the texts in it. -/
def SlideText.expected (s : SlideText) : List (Option Str × List Str) :=
  let title := (some c!"Title", [s.title])
  match s.layout with
  | .blank => []
  | .titleOnly | .sectionHeader | .centeredTitle => [title]
  | .titleAndBigContent => [title] ++ if s.texts = [] then [] else [(some c!"Content", s.texts)]
  | .twoColumn =>
    let left := (s.texts.length + 1) / 2
    [title]
    ++ (if 1 ≤ s.texts.length then [(some c!"Left Content", s.texts.take left)] else [])
    ++ (if 2 ≤ s.texts.length then [(some c!"Right Content", s.texts.drop left)] else [])
  | .titleAndContent =>
    [title] ++ match s.table with
      | some t => [(some c!"Table 3", t.rows.flatMap fun r => r.cells.flatMap CellIn.shown)]
      | none => if s.texts = [] then [] else [(some c!"Content", s.texts)]

/-- What should be read for a cell. -/
def CellIn.expected (c : CellIn) : CellRead :=
  if c.hMerge then ⟨[], none, none, some c!"1", none⟩
  else if c.vMerge then ⟨[], none, none, none, some c!"1"⟩
  else ⟨if c.text = [] then [] else [c.text],
    if 2 ≤ c.gridSpan.getD 1 then some (dec (c.gridSpan.getD 1)) else none,
    if 2 ≤ c.rowSpan.getD 1 then some (dec (c.rowSpan.getD 1)) else none, none, none⟩

/-- The codes of ST_TextAlignType (ECMA-376 20.1.10.59). -/
def alignCode : CellAlign → Str
  | .left => c!"l"
  | .center => c!"ctr"
  | .right => c!"r"
  | .justify => c!"just"

/-- The codes of ST_TextAnchoringType (ECMA-376 20.1.10.60). -/
def anchorCode : CellVAlign → Str
  | .top => c!"t"
  | .middle => c!"ctr"
  | .bottom => c!"b"

/-- Adding a bullet to a slide. -/
inductive BulletOp where
  | plain (t : Str)
  | styled (t : Str) (style : BulletStyle)
  | sub (t : Str)

/-- The text of the bullet. -/
def BulletOp.text : BulletOp → Str
  | .plain t => t
  | .styled t _ => t
  | .sub t => t

/-- The effect on the slide. -/
def BulletOp.run (s : SlideText) : BulletOp → SlideText
  | .plain t => s.addBullet t
  | .styled t st => s.addStyledBullet t st
  | .sub t => s.addSubBullet t

/-- No markup in the bullet character. -/
def BulletOp.Safe : BulletOp → Prop
  | .styled _ st => st.Safe
  | _ => True

end PptRs
