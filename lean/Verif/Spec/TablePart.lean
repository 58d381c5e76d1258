import Verif.Spec.XmlQuery
import Verif.Spec.Parts

/-!
# Specification: how a table is shown

What ECMA-376 part 1, 21.1.3, says about the cells of a table (`CT_TableCell`, `CT_TableCellProperties`)
and the lines around them (`CT_LineProperties`).
-/

namespace PptRs.Spec

open PptRs

/-- The first child with a given name. -/
def child (n : Str) (k : Node) : Option Node :=
  (kidsOf k).find? fun
    | .elem m _ _ => m = n
    | .text _ => false

/-- The colour of the solid fill directly inside an element. -/
def fillColor (k : Node) : Option Str :=
  (child c!"a:solidFill" k).bind fun f => (child c!"a:srgbClr" f).bind (attrOf c!"val")

/-- A line: width, colour, whether it is single or double, and its dashes. -/
structure LineLook where
  width : Option Str
  color : Option Str
  compound : Option Str
  dash : Option Str
deriving DecidableEq

/-- The line that an element describes. -/
def lineLook (k : Node) : LineLook :=
  ⟨attrOf c!"w" k, fillColor k, attrOf c!"cmpd" k, (child c!"a:prstDash" k).bind (attrOf c!"val")⟩

/-- How the text of a cell is written. -/
structure RunLook where
  bold : Bool
  italic : Bool
  underline : Option Str
  strike : Option Str
  size : Option Str
  color : Option Str
  font : Option Str
deriving DecidableEq

/-- The properties of a run. -/
def runLook (k : Node) : RunLook :=
  ⟨attrOf c!"b" k = some c!"1", attrOf c!"i" k = some c!"1", attrOf c!"u" k, attrOf c!"strike" k, attrOf c!"sz" k,
    fillColor k, (child c!"a:latin" k).bind (attrOf c!"typeface")⟩

/-- How a cell is shown. -/
structure CellLook where
  cell : CellRead
  runs : List RunLook
  align : Str
  anchor : Str
  /-- left, right, top, bottom -/
  margins : List (Option Str)
  /-- left, right, top, bottom -/
  lines : List (Option LineLook)
  fill : Option Str
deriving DecidableEq

/-- Reading an `a:tc` element. -/
def cellLook (k : Node) : CellLook :=
  let p := child c!"a:tcPr" k
  { cell := readCell k
    runs := (elems c!"a:rPr" k).map runLook
    align := cellAlign k
    anchor := cellAnchor k
    margins := [c!"marL", c!"marR", c!"marT", c!"marB"].map fun n => p.bind (attrOf n)
    lines := [c!"a:lnL", c!"a:lnR", c!"a:lnT", c!"a:lnB"].map fun n => (p.bind (child n)).map lineLook
    fill := p.bind fillColor }

/-- A table: the widths of its columns, the heights of its rows, and the cells of each row. -/
structure TableLook where
  columns : List (Option Str)
  heights : List (Option Str)
  cells : List (List CellLook)
deriving DecidableEq

/-- Reading an `a:tbl` element. -/
def tableLook (k : Node) : TableLook :=
  let rows := elems c!"a:tr" k
  ⟨(elems c!"a:gridCol" k).map (attrOf c!"w"), rows.map (attrOf c!"h"), rows.map fun r => (elems c!"a:tc" r).map cellLook⟩

/-- The dashes that exist (ST_PresetLineDashVal, ECMA-376 20.1.10.48). -/
def dashValues : List Str :=
  [c!"solid", c!"dot", c!"dash", c!"lgDash", c!"dashDot", c!"lgDashDot", c!"lgDashDotDot", c!"sysDash", c!"sysDot",
    c!"sysDashDot", c!"sysDashDotDot"]

end PptRs.Spec
