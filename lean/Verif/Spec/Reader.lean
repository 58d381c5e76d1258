import Verif.Model.Reader
import Verif.Spec.Bullets

/-!
# Specification: what a reader of a written slide should see

Character data that consists of white space only is no text for the reader (see C51).
-/

namespace PptRs.Spec

open PptRs PptRs.Reader

/-- The text that remains of `t`. -/
def visible (t : Str) : Str := if BlankText t then [] else t

/-- The paragraph of a bullet, on a slide with the text size `size` in points; a blank one is not
read. -/
def seenBullet (s : SlideText) (size : Nat) (b : BulletPoint) : List Paragraph :=
  let f := b.format.getD {}
  if BlankText b.text then []
  else [{ level := b.level
          runs := [{ text := b.text
                     bold := f.bold || s.contentBold
                     italic := f.italic || s.contentItalic
                     underline := f.underline
                     fontSize := some (100 * f.fontSize.getD (s.contentSize.getD size))
                     color := (f.color.or s.contentColor).map plainColor }] }]

/-- The paragraph of the title. -/
def seenTitle (s : SlideText) (size : Nat) (bold : Bool) : List Paragraph :=
  if BlankText s.title then []
  else [{ level := 0
          runs := [{ text := s.title
                     bold := bold
                     italic := s.titleItalic
                     underline := s.titleUnderline
                     fontSize := some (100 * s.titleSize.getD size)
                     color := s.titleColor.map plainColor }] }]

/-- A cell: those covered by a merged cell are empty and span one cell. -/
def seenCell (c : CellIn) : ParsedCell :=
  if c.hMerge || c.vMerge then ⟨[], 1, 1⟩
  else ⟨visible c.text, max 1 (c.rowSpan.getD 1), max 1 (c.gridSpan.getD 1)⟩

/-- The rows of a table that have cells. -/
def seenTable (t : TableIn) : List (List ParsedCell) :=
  (t.rows.map fun r => r.cells.map seenCell).filter (· ≠ [])

/-- The title box. -/
def seenTitleBox (s : SlideText) (size : Nat) (bold : Bool) (x y w h : Nat) : ParsedShape :=
  { name := c!"Title", shapeType := some c!"rect", paragraphs := seenTitle s size bold, x, y, width := w, height := h
    isTitle := true }

/-- A box with bullets. -/
def seenBox (s : SlideText) (name : Str) (size : Nat) (x y w h : Nat) (l : List BulletPoint) : ParsedShape :=
  { name, shapeType := some c!"rect", paragraphs := l.flatMap (seenBullet s size), x, y, width := w, height := h
    isBody := true }

/-- The bullets of a slide, as the user added them. -/
def bulletsAsked (s : SlideText) : List BulletPoint :=
  if s.bullets = [] then s.content.map fun t => { text := t, style := s.bulletStyle } else s.bullets

/-- The boxes of a slide. -/
def seenShapes (s : SlideText) : List ParsedShape :=
  let l := bulletsAsked s
  match s.layout with
  | .blank => []
  | .titleOnly => [seenTitleBox s 44 s.titleBold 457200 274638 8230200 1143000]
  | .sectionHeader => [seenTitleBox s 48 true 457200 1600200 8229600 1828800]
  | .centeredTitle => [seenTitleBox s 54 s.titleBold 457200 2743200 8230200 1371600]
  | .titleAndBigContent =>
    [seenTitleBox s 44 s.titleBold 457200 274638 8230200 914400]
    ++ (if l = [] then [] else [seenBox s c!"Content" 28 457200 1189200 8230200 5668800 l])
  | .twoColumn =>
    [seenTitleBox s 44 s.titleBold 457200 274638 8230200 914400]
    ++ (if 1 ≤ l.length then
        [seenBox s c!"Left Content" 24 457200 1189200 4115100 5668800 (l.take ((l.length + 1) / 2))] else [])
    ++ (if 2 ≤ l.length then
        [seenBox s c!"Right Content" 24 4572300 1189200 4115100 5668800 (l.drop ((l.length + 1) / 2))] else [])
  | .titleAndContent =>
    [seenTitleBox s 44 s.titleBold 457200 274638 8230200 1143000]
    ++ (if l = [] ∨ s.table.isSome then [] else [seenBox s c!"Content" 28 457200 1600200 8230200 4572000 l])

/-- The tables of a slide. -/
def seenTables (s : SlideText) : List (List (List ParsedCell)) :=
  if s.layout = .titleAndContent then (s.table.toList.map seenTable).filter (· ≠ []) else []

/-- Whether a layout shows bullets. -/
def showsBullets (s : SlideText) : Bool :=
  match s.layout with
  | .titleAndContent => s.table.isNone
  | .titleAndBigContent | .twoColumn => true
  | _ => false

/-- What a reader should see on a slide. -/
def seenSlide (s : SlideText) : ParsedSlide where
  shapes := seenShapes s
  tables := seenTables s
  title := if s.layout = .blank then none else some (visible s.title)
  bodyText := if showsBullets s then s.texts.filter fun t => ¬ BlankText t else []

/-- The numbers of a slide fit into 32 bits. -/
structure SmallNumbers (s : SlideText) : Prop where
  title : ∀ n ∈ s.titleSize, n < 40000000
  content : ∀ n ∈ s.contentSize, n < 40000000
  level : ∀ b ∈ s.bullets, b.level < 4294967296
  bullets : ∀ b ∈ s.bullets, ∀ f ∈ b.format, ∀ n ∈ f.fontSize, n < 40000000
  cells : ∀ t ∈ s.table, ∀ r ∈ t.rows, ∀ c ∈ r.cells, c.rowSpan.getD 1 < 4294967296 ∧ c.gridSpan.getD 1 < 4294967296

end PptRs.Spec
