import Verif.Model.Drawing
import Verif.Model.SlideText

/-!
# The table part, src/parts/table.rs

A second generator for tables, with its own cells, rows and borders.

Simplifications: widths of borders are given in EMU (the conversion from points in
`CellBorder::new`, lines 90-96, is floating-point); the product `size * 100` of a font size does not
overflow 32 bits; `width / col_count` is a division of integers.
-/

namespace PptRs.TablePart

open PptRs.Draw

/-- `HorizontalAlign`, src/parts/table.rs 20-26. -/
inductive HAlign where
  | left | center | right | justify
deriving DecidableEq

/-- `HorizontalAlign::as_str`, src/parts/table.rs 29-36. -/
def HAlign.asStr : HAlign → Str
  | .left => c!"l" | .center => c!"ctr" | .right => c!"r" | .justify => c!"just"

/-- `VerticalAlign`, src/parts/table.rs 41-46. -/
inductive VAlign where
  | top | middle | bottom
deriving DecidableEq

/-- `VerticalAlign::as_str`, src/parts/table.rs 49-55. -/
def VAlign.asStr : VAlign → Str
  | .top => c!"t" | .middle => c!"ctr" | .bottom => c!"b"

/-- `BorderStyle`, src/parts/table.rs 60-67. -/
inductive BorderStyle where
  | solid | dashed | dotted | double | none
deriving DecidableEq

/-- `BorderStyle::as_str`, src/parts/table.rs 70-78. -/
def BorderStyle.asStr : BorderStyle → Str
  | .solid => c!"solid" | .dashed => c!"dash" | .dotted => c!"dot" | .double => c!"dbl" | .none => c!"none"

/-- `CellBorder`, src/parts/table.rs 83-101. -/
structure CellBorder where
  width : Int
  color : Str
  style : BorderStyle := .solid

/-- `CellBorder::to_xml`, src/parts/table.rs 103-118. -/
def CellBorder.toXml (b : CellBorder) (tag : Str) : List Part :=
  if b.style = .none then t!"<a:" ++ [.lit tag] ++ t!"/>\n"
  else t!"<a:" ++ [.lit tag] ++ t!" w=\"{.raw (decInt b.width)}\" cap=\"flat\" cmpd=\"sng\" algn=\"ctr\">
              <a:solidFill><a:srgbClr val=\"{.raw (trimStartChar '#' b.color)}\"/></a:solidFill>
              <a:prstDash val=\"{.raw b.style.asStr}\"/>
            </a:" ++ [.lit tag] ++ t!">"

/-- `CellBorders`, src/parts/table.rs 123-128. -/
structure CellBorders where
  left : Option CellBorder := .none
  right : Option CellBorder := .none
  top : Option CellBorder := .none
  bottom : Option CellBorder := .none

/-- `CellBorders::all`, src/parts/table.rs 131-138. -/
def CellBorders.all (b : CellBorder) : CellBorders := ⟨some b, some b, some b, some b⟩

/-- `CellBorders::none`, src/parts/table.rs 140-152. -/
def CellBorders.off : CellBorders := .all ⟨0, [], .none⟩

/-- `CellBorders::to_xml`, src/parts/table.rs 154-169. -/
def CellBorders.toXml (b : CellBorders) : List Part :=
  whenSome b.left (·.toXml c!"lnL") ++ whenSome b.right (·.toXml c!"lnR")
    ++ whenSome b.top (·.toXml c!"lnT") ++ whenSome b.bottom (·.toXml c!"lnB")

/-- `CellMargins`, src/parts/table.rs 180-207. -/
structure CellMargins where
  left : Int := 91440
  right : Int := 91440
  top : Int := 45720
  bottom : Int := 45720

/-- `TableCellPart`, src/parts/table.rs 211-251, with the defaults of `new`. The setters in lines
260-355 set one field each. -/
structure Cell where
  text : Str
  rowSpan : Nat := 1
  colSpan : Nat := 1
  bold : Bool := false
  italic : Bool := false
  underline : Bool := false
  strikethrough : Bool := false
  backgroundColor : Option Str := .none
  textColor : Option Str := .none
  fontSize : Option Nat := .none
  fontFamily : Option Str := .none
  hAlign : HAlign := .left
  vAlign : VAlign := .middle
  borders : Option CellBorders := .none
  margins : Option CellMargins := .none
  isMerged : Bool := false

/-- `TableCellPart::merged`, src/parts/table.rs 254-258. -/
def Cell.merged : Cell := { text := [], isMerged := true }

/-- `TableCellPart::center`, src/parts/table.rs 321-325. -/
def Cell.center (c : Cell) : Cell := { c with hAlign := .center, vAlign := .middle }

/-- src/parts/table.rs 364-370. -/
def Cell.spanAttrs (c : Cell) : List Part :=
  whenSet (decide (1 < c.rowSpan)) t!" rowSpan=\"{.num c.rowSpan}\""
    ++ whenSet (decide (1 < c.colSpan)) t!" gridSpan=\"{.num c.colSpan}\""

/-- src/parts/table.rs 373-382 and 403-412. -/
def fillXml (o : Option Str) : List Part :=
  whenSome o fun c => t!"<a:solidFill><a:srgbClr val=\"{.raw (trimStartChar '#' c)}\"/></a:solidFill>"

/-- src/parts/table.rs 385-400. -/
def Cell.runAttrs (c : Cell) : List Part :=
  whenSet c.bold t!" b=\"1\"" ++ whenSet c.italic t!" i=\"1\"" ++ whenSet c.underline t!" u=\"sng\""
    ++ whenSet c.strikethrough t!" strike=\"sngStrike\"" ++ whenSome c.fontSize fun n => t!" sz=\"{.num (n * 100)}\""

/-- src/parts/table.rs 415-419. -/
def Cell.fontXml (c : Cell) : List Part := whenSome c.fontFamily fun x => t!"<a:latin typeface=\"{.raw x}\"/>"

/-- src/parts/table.rs 422-426. -/
def Cell.paraXml (c : Cell) : List Part :=
  if c.hAlign = .center then [] else t!"<a:pPr algn=\"{.raw c.hAlign.asStr}\"/>"

/-- src/parts/table.rs 429-435. -/
def Cell.cellAttrs (c : Cell) : List Part :=
  t!" anchor=\"{.raw c.vAlign.asStr}\"" ++ whenSome c.margins fun m =>
    t!" marL=\"{.raw (decInt m.left)}\" marR=\"{.raw (decInt m.right)}\" marT=\"{.raw (decInt m.top)}\" marB=\"{.raw (decInt m.bottom)}\""

/-- `TableCellPart::to_xml`, src/parts/table.rs 358-469. -/
def Cell.toXml (c : Cell) : List Part :=
  if c.isMerged then
    t!"<a:tc hMerge=\"1\"><a:txBody><a:bodyPr/><a:lstStyle/><a:p><a:endParaRPr/></a:p></a:txBody><a:tcPr/></a:tc>"
  else t!"<a:tc" ++ c.spanAttrs ++ t!">
          <a:txBody>
            <a:bodyPr/>
            <a:lstStyle/>
            <a:p>
              " ++ c.paraXml ++ t!"
              <a:r>
                <a:rPr lang=\"en-US\"" ++ c.runAttrs ++ t!">" ++ fillXml c.textColor ++ c.fontXml ++ t!"</a:rPr>
                <a:t>{.esc c.text}</a:t>
              </a:r>
            </a:p>
          </a:txBody>
          <a:tcPr" ++ c.cellAttrs ++ t!">" ++ whenSome c.borders CellBorders.toXml ++ fillXml c.backgroundColor ++ t!"</a:tcPr>
        </a:tc>"

/-- `TableRowPart`, src/parts/table.rs 480-498. -/
structure Row where
  cells : List Cell
  height : Option Int := .none

/-- `join` of formatted strings. -/
def joined (sep : List Part) : List (List Part) → List Part
  | [] => []
  | [x] => x
  | x :: y :: r => x ++ sep ++ joined sep (y :: r)

/-- `TableRowPart::to_xml`, src/parts/table.rs 501-520. -/
def Row.toXml (r : Row) : List Part :=
  t!"<a:tr" ++ whenSome r.height (fun h => t!" h=\"{.raw (decInt h)}\"") ++ t!">
        " ++ joined t!"\n        " (r.cells.map Cell.toXml) ++ t!"
      </a:tr>"

/-- `TablePart`, src/parts/table.rs 531-551, with the defaults of `new`. -/
structure Table where
  rows : List Row := []
  colWidths : List Int := []
  x : Int := 914400
  y : Int := 1828800
  width : Int := 7315200
  height : Int := 1828800

/-- `TablePart::add_row`, src/parts/table.rs 554-563. Division of `i64` rounds towards zero. -/
def Table.addRow (t : Table) (r : Row) : Table :=
  { t with
    rows := t.rows ++ [r]
    colWidths :=
      if t.colWidths = [] ∧ r.cells ≠ [] then List.replicate r.cells.length (t.width.tdiv r.cells.length)
      else t.colWidths }

/-- `TablePart::size`, src/parts/table.rs 573-577. -/
def Table.size (t : Table) (w h : Int) : Table := { t with width := w, height := h }

/-- The columns, and the white space around them, src/parts/table.rs 587-592 and 619-620. -/
def gridParts (l : List Int) : List Part :=
  t!"\n        " ++ joined t!"\n        " (l.map fun w => t!"<a:gridCol w=\"{.raw (decInt w)}\"/>") ++ t!"\n        "

/-- The rows, and the white space around them, src/parts/table.rs 594-599 and 621-622. -/
def rowParts (l : List Row) : List Part := t!"\n      " ++ joined t!"\n      " (l.map Row.toXml) ++ t!"\n      "

/-- The start of a table, src/parts/table.rs 602-617. -/
def tableHead (t : Table) (id : Nat) : List Part :=
  t!"<p:graphicFrame>
  <p:nvGraphicFramePr>
    <p:cNvPr id=\"{.num id}\" name=\"Table {.num id}\"/>
    <p:cNvGraphicFramePr><a:graphicFrameLocks noGrp=\"1\"/></p:cNvGraphicFramePr>
    <p:nvPr/>
  </p:nvGraphicFramePr>
  <p:xfrm>
    <a:off x=\"{.raw (decInt t.x)}\" y=\"{.raw (decInt t.y)}\"/>
    <a:ext cx=\"{.raw (decInt t.width)}\" cy=\"{.raw (decInt t.height)}\"/>
  </p:xfrm>
  <a:graphic>
    <a:graphicData uri=\"http://schemas.openxmlformats.org/drawingml/2006/table\">
      <a:tbl>
        <a:tblPr firstRow=\"1\" bandRow=\"1\">
          <a:tableStyleId>\x7b5C22544A-7EE6-4342-B048-85BDC9FD1C3A}</a:tableStyleId>
        </a:tblPr>
        "

/-- The end of a table, src/parts/table.rs 622-625. -/
def tableTail : List Part :=
  t!"</a:tbl>
    </a:graphicData>
  </a:graphic>
</p:graphicFrame>"

/-- `TablePart::to_slide_xml`, src/parts/table.rs 586-628. -/
def Table.toXml (t : Table) (id : Nat) : List Part :=
  tableHead t id ++ (t!"<a:tblGrid>" ++ gridParts t.colWidths ++ t!"</a:tblGrid>") ++ rowParts t.rows ++ tableTail

/-- `TablePart::from_xml`, src/parts/table.rs 654-656: the XML is not looked at. -/
def Table.fromXml (_ : Str) : Option Table := some {}

end PptRs.TablePart
