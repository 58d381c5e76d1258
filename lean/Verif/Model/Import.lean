import Verif.Model.Reader
import Verif.Model.Drawing

/-!
# Loading presentations

src/import/mod.rs: what `Presentation::from_path` makes of a file.
-/

namespace PptRs.Import

open PptRs PptRs.Reader PptRs.Draw

/-- `map_shape_type`, src/import/mod.rs 79-98. -/
def mapShapeType : Option Str → ShapeType
  | none => .rectangle
  | some n =>
    if n = c!"rect" then .rectangle
    else if n = c!"roundRect" then .roundedRectangle
    else if n = c!"ellipse" then .ellipse
    else if n = c!"triangle" then .triangle
    else if n = c!"rtTriangle" then .rightTriangle
    else if n = c!"diamond" then .diamond
    else if n = c!"pentagon" then .pentagon
    else if n = c!"hexagon" then .hexagon
    else if n = c!"octagon" then .octagon
    else if n = c!"star5" then .star5
    else if n = c!"rightArrow" then .rightArrow
    else .rectangle

/-- `v.max(0) as u32`, src/import/mod.rs 32-35. -/
def toU32 (v : Int) : Nat := v.toNat % 4294967296

/-- A shape, src/import/mod.rs 30-44. -/
def importShape (s : ParsedShape) : Shape :=
  let shape : Shape :=
    { kind := mapShapeType s.shapeType, x := toU32 s.x, y := toU32 s.y, width := toU32 s.width, height := toU32 s.height }
  if s.text = [] then shape else { shape with text := some s.text }

/-- A table, src/import/mod.rs 50-64 with src/generator/table/builder.rs 78-115; `none`: it is skipped. -/
def importTable (rows : List (List ParsedCell)) : Option TableIn :=
  let cols := (rows.head?.map List.length).getD 0
  if cols = 0 then none
  else some
    { rows := rows.map fun r => { height := none, cells := r.map fun c => { text := c.text } }
      columnWidths := List.replicate cols 1828800
      x := 0
      y := 0 }

/-- A slide of a loaded presentation: its text and its shapes. -/
structure LoadedSlide where
  text : SlideText
  shapes : List Shape := []

/-- A loaded presentation. -/
structure Loaded where
  title : Str := []
  slides : List LoadedSlide := []

/-- The loop over the tables, src/import/mod.rs 49-71. -/
def addTable (t : Option TableIn) (rows : List (List ParsedCell)) : Option TableIn :=
  match importTable rows with
  | none => t
  | some new => if t.isNone then some new else t

/-- The body of the loop over the slides, src/import/mod.rs 20-73. -/
def importSlide (s : ParsedSlide) : LoadedSlide :=
  let t := s.bodyText.foldl SlideText.addBullet (SlideText.new (s.title.getD []))
  { text := { t with table := s.tables.foldl addTable t.table }
    shapes := (s.shapes.filter fun x => !x.isTitle && !x.isBody).map importShape }

/-- `import_pptx`, src/import/mod.rs 11-77, with `get_all_slides`, src/oxml/presentation.rs 89-95; `none` is an error. -/
def importPptx (p : Package) : Option Loaded :=
  ((List.range (slidePaths p).length).mapM (getSlide p)).map fun slides =>
    { title := (coreInfo p).title.getD [], slides := slides.map importSlide }

end PptRs.Import
