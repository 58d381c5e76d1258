import Verif.Model.SlideText
import Verif.Model.Drawing
import Verif.Model.Charts
import Verif.Model.Media
import Verif.Model.ImageBuilder
import Verif.Model.Settings

/-!
# Chains of calls

The methods that take a slide, bullet, cell, connector or shape and return it changed. A call is a value, a method
is one case of a function `call`.
-/

namespace PptRs.Chains

open PptRs PptRs.Draw

/-! ### Bullets -/

/-- The methods of `BulletTextFormat`. -/
inductive FormatCall where
  | bold | italic | underline | strikethrough | subscript | superscript
  | color (hex : Str)
  | highlight (hex : Str)
  | fontSize (n : Nat)
  | fontFamily (f : Str)

/-- src/generator/slide_content/bullet.rs 76-126. -/
def FormatCall.run (f : BulletTextFormat) : FormatCall → BulletTextFormat
  | .bold => { f with bold := true }
  | .italic => { f with italic := true }
  | .underline => { f with underline := true }
  | .strikethrough => { f with strikethrough := true }
  | .subscript => { f with subscript := true, superscript := false }
  | .superscript => { f with superscript := true, subscript := false }
  | .color hex => { f with color := some (cleanColor hex) }
  | .highlight hex => { f with highlight := some (cleanColor hex) }
  | .fontSize n => { f with fontSize := some n }
  | .fontFamily s => { f with fontFamily := some s }

/-- The methods of `BulletPoint`. -/
inductive BulletCall where
  | level (n : Nat)
  | style (s : BulletStyle)
  | format (f : BulletTextFormat)
  | bold | italic | strikethrough | subscript | superscript
  | highlight (hex : Str)
  | color (hex : Str)
  | fontSize (n : Nat)

/-- `BulletPoint::new`, src/generator/slide_content/bullet.rs 139-146. -/
def newBullet (text : Str) : BulletPoint := { text }

/-- A change of the format: `self.format.unwrap_or_default()` and then the method of the format. -/
def onFormat (b : BulletPoint) (c : FormatCall) : BulletPoint := { b with format := some (c.run (b.format.getD {})) }

/-- src/generator/slide_content/bullet.rs 148-201. -/
def BulletCall.run (b : BulletPoint) : BulletCall → BulletPoint
  | .level n => { b with level := n }
  | .style s => { b with style := s }
  | .format f => { b with format := some f }
  | .bold => onFormat b .bold
  | .italic => onFormat b .italic
  | .strikethrough => onFormat b .strikethrough
  | .subscript => onFormat b .subscript
  | .superscript => onFormat b .superscript
  | .highlight c => onFormat b (.highlight c)
  | .color c => onFormat b (.color c)
  | .fontSize n => onFormat b (.fontSize n)

/-- `BulletStyle::indent_xml`, src/generator/slide_content/bullet.rs 43-47: the two numbers; `none` is the overflow of
`u32`. -/
def indentXml (level : Nat) : Option (Nat × Nat) :=
  if level * 457200 + (457200 + level * 457200) < 4294967296 then
    some (457200 + level * 457200, level * 457200 + (457200 + level * 457200))
  else none

/-! ### Cells and tables -/

/-- The methods of `TableCell`. -/
inductive CellCall where
  | bold | italic | underline
  | textColor (c : Str)
  | backgroundColor (c : Str)
  | fontSize (n : Nat)
  | fontFamily (f : Str)
  | align (a : CellAlign)
  | alignLeft | alignRight | alignCenter
  | valign (a : CellVAlign)
  | valignTop | valignBottom
  | wrap (b : Bool)
  | gridSpan (n : Nat)
  | rowSpan (n : Nat)
  | hMerge | vMerge

/-- `TableCell::new`, src/generator/table/cell.rs 82-100. The field `wrap_text` is left out: nothing reads it. -/
def newCell (text : Str) : CellIn := { text }

/-- src/generator/table/cell.rs 103-214; `with_col_span`, `with_row_span`, `with_h_merge` and `with_v_merge` of 217-234 are
other names of four of them. -/
def CellCall.run (c : CellIn) : CellCall → CellIn
  | .bold => { c with bold := true }
  | .italic => { c with italic := true }
  | .underline => { c with underline := true }
  | .textColor s => { c with textColor := some (cleanColor s) }
  | .backgroundColor s => { c with backgroundColor := some (cleanColor s) }
  | .fontSize n => { c with fontSize := some n }
  | .fontFamily f => { c with fontFamily := some f }
  | .align a => { c with align := a }
  | .alignLeft => { c with align := .left }
  | .alignRight => { c with align := .right }
  | .alignCenter => { c with align := .center }
  | .valign a => { c with valign := a }
  | .valignTop => { c with valign := .top }
  | .valignBottom => { c with valign := .bottom }
  | .wrap _ => c
  | .gridSpan n => { c with gridSpan := some n }
  | .rowSpan n => { c with rowSpan := some n }
  | .hMerge => { c with hMerge := true }
  | .vMerge => { c with vMerge := true }

/-- `header_cell`, src/generator/table/style.rs 22-27 with the constants of 9 and 13. -/
def headerCell (text : Str) : CellIn :=
  [CellCall.bold, .backgroundColor c!"4472C4", .textColor c!"FFFFFF"].foldl CellCall.run (newCell text)

/-- `TableRow::new`, src/generator/table/row.rs 16-21. -/
def newRow (cells : List CellIn) : RowIn := ⟨none, cells⟩

/-- `TableRow::with_height`, src/generator/table/row.rs 24-27. -/
def withHeight (r : RowIn) (h : Nat) : RowIn := { r with height := some h }

/-- The methods of `TableBuilder`. -/
inductive TableCall where
  | row (r : RowIn)
  | simple (cells : List Str)
  | position (x y : Nat)

/-- `TableBuilder::new` and `build` without calls, src/generator/table/builder.rs 78-84 and 108-115 with
`ElementPlacement::new`. -/
def newTable (widths : List Nat) : TableIn := ⟨[], widths, 0, 0⟩

/-- src/generator/table/builder.rs 87-105. -/
def TableCall.run (t : TableIn) : TableCall → TableIn
  | .row r => { t with rows := t.rows ++ [r] }
  | .simple cells => { t with rows := t.rows ++ [newRow (cells.map newCell)] }
  | .position x y => { t with x := x, y := y }

/-- `Table::from_data`, src/generator/table/builder.rs 26-42. -/
def fromData (data : List (List Str)) (widths : List Nat) (x y : Nat) : TableIn :=
  ⟨data.map fun r => newRow (r.map newCell), widths, x, y⟩

/-- `Table::width`, src/generator/table/builder.rs 45-47; `none` is the overflow of `u32`. -/
def tableWidth (t : TableIn) : Option Nat := if t.columnWidths.sum < 4294967296 then some t.columnWidths.sum else none

/-- `Table::height`, src/generator/table/builder.rs 50-55; `none` is the overflow of `u32`. -/
def tableHeight (t : TableIn) : Option Nat :=
  if (t.rows.map fun r => r.height.getD 400000).sum < 4294967296 then some (t.rows.map fun r => r.height.getD 400000).sum
  else none

/-! ### Connectors -/

/-- The methods of `Connector`. -/
inductive ConnectorCall where
  | line (l : ConnectorLine)
  | color (c : Str)
  | width (n : Nat)
  | startArrow (a : ArrowType)
  | endArrow (a : ArrowType)
  | arrows (s e : ArrowType)
  | arrowSize (s : ArrowSize)
  | connectStart (id : Nat) (site : ConnectionSite)
  | connectEnd (id : Nat) (site : ConnectionSite)
  | label (s : Str)

/-- `Connector::new` (and `straight`, `elbow`, `curved`), src/generator/connectors.rs 228-267. -/
def newConnector (k : ConnectorType) (x y x' y' : Nat) : Connector :=
  { kind := k, startX := x, startY := y, endX := x', endY := y' }

/-- `ConnectorLine::new`, src/generator/connectors.rs 151-157. -/
def newLine (color : Str) (width : Nat) : ConnectorLine := { color := cleanColor color, width := width }

/-- `ConnectorLine::with_dash`, src/generator/connectors.rs 160-163. -/
def withDash (l : ConnectorLine) (d : LineDash) : ConnectorLine := { l with dash := d }

/-- src/generator/connectors.rs 269-329. -/
def ConnectorCall.run (c : Connector) : ConnectorCall → Connector
  | .line l => { c with line := l }
  | .color s => { c with line := { c.line with color := cleanColor s } }
  | .width n => { c with line := { c.line with width := n } }
  | .startArrow a => { c with startArrow := a }
  | .endArrow a => { c with endArrow := a }
  | .arrows s e => { c with startArrow := s, endArrow := e }
  | .arrowSize s => { c with arrowSize := s }
  | .connectStart id site => { c with startShape := some id, startSite := some site }
  | .connectEnd id site => { c with endShape := some id, endSite := some site }
  | .label s => { c with label := some s }

/-! ### Shapes -/

/-- The methods of `Shape`, those with lengths in inches being in `PptRs.Units`. -/
inductive ShapeCall where
  | id (n : Nat)
  | rotation (d : Int)
  | hyperlink (l : Link)
  | fill (f : ShapeFill)
  | gradient (g : GradientFill)
  | line (l : ShapeLine)
  | text (s : Str)
  | position (x y : Nat)
  | size (w h : Nat)

/-- `Shape::new`, src/generator/shapes.rs 598-613. -/
def newShape (k : ShapeType) (x y w h : Nat) : Shape := { kind := k, x := x, y := y, width := w, height := h }

/-- src/generator/shapes.rs 616-657, and `set_position` and `set_size` of 707-723. -/
def ShapeCall.run (s : Shape) : ShapeCall → Shape
  | .id n => { s with id := some n }
  | .rotation d => { s with rotation := some d }
  | .hyperlink l => { s with link := some l }
  | .fill f => s.withFill f
  | .gradient g => s.withGradient g
  | .line l => { s with line := some l }
  | .text t => { s with text := some t }
  | .position x y => { s with x := x, y := y }
  | .size w h => { s with width := w, height := h }

/-! ### Slides -/

/-- `SlideContent`, src/generator/slide_content/content.rs 14-57: the fields of the text are in `text`. The objects on a
slide are of any types. -/
structure Content (Sh Im Co Vi Au Ch In : Type) where
  text : SlideText
  hasTable : Bool := false
  hasChart : Bool := false
  hasImage : Bool := false
  shapes : List Sh := []
  images : List Im := []
  notes : Option Str := none
  connectors : List Co := []
  videos : List Vi := []
  audios : List Au := []
  charts : List Ch := []
  ink : Option In := none

/-- The methods of `SlideContent`. -/
inductive SlideCall (Sh Im Co Vi Au Ch In : Type) where
  | transition (t : Transition)
  | bullet (t : Str)
  | styledBullet (t : Str) (s : BulletStyle)
  | numbered (t : Str)
  | lettered (t : Str)
  | subBullet (t : Str)
  | bulletStyle (s : BulletStyle)
  | titleSize (n : Nat)
  | contentSize (n : Nat)
  | titleBold (b : Bool)
  | contentBold (b : Bool)
  | titleItalic (b : Bool)
  | contentItalic (b : Bool)
  | titleUnderline (b : Bool)
  | contentUnderline (b : Bool)
  | titleColor (c : Str)
  | contentColor (c : Str)
  | hasTable | hasChart | hasImage
  | layout (l : SlideLayout)
  | table (t : TableIn)
  | shape (s : Sh)
  | shapes (l : List Sh)
  | image (i : Im)
  | images (l : List Im)
  | notes (s : Str)
  | connector (c : Co)
  | connectors (l : List Co)
  | video (v : Vi)
  | videos (l : List Vi)
  | audio (a : Au)
  | audios (l : List Au)
  | chart (c : Ch)
  | charts (l : List Ch)
  | ink (i : In)

variable {Sh Im Co Vi Au Ch In : Type}

/-- `SlideContent::new`, src/generator/slide_content/content.rs 60-92. -/
def newSlide (title : Str) : Content Sh Im Co Vi Au Ch In := { text := SlideText.new title }

/-- src/generator/slide_content/content.rs 95-313; `with_layout` of 212-214 is another name of `layout`. -/
def SlideCall.run (s : Content Sh Im Co Vi Au Ch In) : SlideCall Sh Im Co Vi Au Ch In → Content Sh Im Co Vi Au Ch In
  | .transition t => { s with text := { s.text with transition := t } }
  | .bullet t => { s with text := s.text.addBullet t }
  | .styledBullet t st => { s with text := s.text.addStyledBullet t st }
  | .numbered t => { s with text := s.text.addStyledBullet t .number }
  | .lettered t => { s with text := s.text.addStyledBullet t .letterLower }
  | .subBullet t => { s with text := s.text.addSubBullet t }
  | .bulletStyle st => { s with text := { s.text with bulletStyle := st } }
  | .titleSize n => { s with text := { s.text with titleSize := some n } }
  | .contentSize n => { s with text := { s.text with contentSize := some n } }
  | .titleBold b => { s with text := { s.text with titleBold := b } }
  | .contentBold b => { s with text := { s.text with contentBold := b } }
  | .titleItalic b => { s with text := { s.text with titleItalic := b } }
  | .contentItalic b => { s with text := { s.text with contentItalic := b } }
  | .titleUnderline b => { s with text := { s.text with titleUnderline := b } }
  | .contentUnderline b => { s with text := { s.text with contentUnderline := b } }
  | .titleColor c => { s with text := { s.text with titleColor := some (cleanColor c) } }
  | .contentColor c => { s with text := { s.text with contentColor := some (cleanColor c) } }
  | .hasTable => { s with hasTable := true }
  | .hasChart => { s with hasChart := true }
  | .hasImage => { s with hasImage := true }
  | .layout l => { s with text := { s.text with layout := l } }
  | .table t => { s with text := { s.text with table := some t }, hasTable := true }
  | .shape x => { s with shapes := s.shapes ++ [x] }
  | .shapes l => { s with shapes := s.shapes ++ l }
  | .image i => { s with images := s.images ++ [i], hasImage := true }
  | .images l => { s with images := s.images ++ l, hasImage := true }
  | .notes n => { s with notes := some n }
  | .connector c => { s with connectors := s.connectors ++ [c] }
  | .connectors l => { s with connectors := s.connectors ++ l }
  | .video v => { s with videos := s.videos ++ [v] }
  | .videos l => { s with videos := s.videos ++ l }
  | .audio a => { s with audios := s.audios ++ [a] }
  | .audios l => { s with audios := s.audios ++ l }
  | .chart c => { s with charts := s.charts ++ [c], hasChart := true }
  | .charts l => { s with charts := s.charts ++ l, hasChart := true }
  | .ink i => { s with ink := some i }

/-- `has_notes`, src/generator/slide_content/content.rs 255-257. -/
def Content.hasNotes (s : Content Sh Im Co Vi Au Ch In) : Bool := s.notes.isSome

/-- `has_media`, src/generator/slide_content/content.rs 316-318. -/
def Content.hasMedia (s : Content Sh Im Co Vi Au Ch In) : Bool := !s.videos.isEmpty || !s.audios.isEmpty

/-- `has_connectors`, src/generator/slide_content/content.rs 321-323. -/
def Content.hasConnectors (s : Content Sh Im Co Vi Au Ch In) : Bool := !s.connectors.isEmpty

end PptRs.Chains
