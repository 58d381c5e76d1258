import Verif.Model.Reader
import Verif.Model.Charts
import Verif.Model.Parts
import Verif.Model.Relationships

/-!
# Parts that change: slides, charts and document properties
-/

namespace PptRs

/-- `SlidePart`, src/parts/slide.rs 14-20; the path is that of 26, 37 and 149 and follows from the number. -/
structure SlidePart where
  number : Nat
  content : Option SlideText := none
  parsed : Option Reader.ParsedSlide := none
  kept : Option Str := none

namespace SlidePart

/-- src/parts/slide.rs 24-32. -/
def new (n : Nat) : SlidePart := { number := n }

/-- src/parts/slide.rs 35-43. -/
def fromContent (n : Nat) (c : SlideText) : SlidePart := { number := n, content := some c }

/-- src/parts/slide.rs 56-59. -/
def setContent (p : SlidePart) (c : SlideText) : SlidePart := { p with content := some c, kept := none }

/-- src/parts/slide.rs 67-69. -/
def title (p : SlidePart) : Option Str := p.parsed.bind (·.title)

/-- src/parts/slide.rs 72-77. -/
def bodyText (p : SlidePart) : List Str := (p.parsed.map (·.bodyText)).getD []

/-- `path`, src/parts/slide.rs 26, 37 and 101-103. -/
def path (p : SlidePart) : Str := c!"ppt/slides/slide" ++ dec p.number ++ c!".xml"

/-- src/parts/slide.rs 80-82. -/
def relsPath (p : SlidePart) : Str := c!"ppt/slides/_rels/slide" ++ dec p.number ++ c!".xml.rels"

/-- src/parts/slide.rs 85-92. -/
def createRelationships (_ : SlidePart) : Option Relationships :=
  (Relationships.new.add .slideLayout c!"../slideLayouts/slideLayout1.xml").map Prod.fst

/-- The text of src/parts/slide.rs 126-138 without its first line. -/
def emptyBody : List Part := t!"<p:sld xmlns:a=\"http://schemas.openxmlformats.org/drawingml/2006/main\" xmlns:r=\"http://schemas.openxmlformats.org/officeDocument/2006/relationships\" xmlns:p=\"http://schemas.openxmlformats.org/presentationml/2006/main\">\n<p:cSld>\n<p:spTree>\n<p:nvGrpSpPr>\n<p:cNvPr id=\"1\" name=\"\"/>\n<p:cNvGrpSpPr/>\n<p:nvPr/>\n</p:nvGrpSpPr>\n<p:grpSpPr/>\n</p:spTree>\n</p:cSld>\n</p:sld>"

/-- `to_xml`, src/parts/slide.rs 113-139. What `render_additional_content` writes is in the content's `extra`. -/
def toXml (p : SlidePart) : Str :=
  match p.kept, p.content with
  | some x, _ => x
  | none, some c => c.xml
  | none, none => xmlDecl ++ fmt emptyBody

/-- `parse_slide`, src/parts/slide.rs 159-169. -/
def parse (x : Str) (n : Nat) : Option SlidePart :=
  (Reader.parseSlide x).map fun r => { number := n, parsed := some r, kept := some x }

/-- `from_xml`, src/parts/slide.rs 141-155. -/
def fromXml (x : Str) : Option SlidePart := parse x 1

end SlidePart

/-- `ChartPart`, src/parts/chart.rs 11-16. -/
structure ChartPart where
  number : Nat
  chart : Option Chart := none
  kept : Option Str := none

namespace ChartPart

/-- src/parts/chart.rs 20-27. -/
def new (n : Nat) : ChartPart := { number := n }

/-- src/parts/chart.rs 30-37. -/
def fromChart (n : Nat) (c : Chart) : ChartPart := { number := n, chart := some c }

/-- src/parts/chart.rs 50-53. -/
def setChart (p : ChartPart) (c : Chart) : ChartPart := { p with chart := some c, kept := none }

/-- src/parts/chart.rs 22, 32 and 62-64. -/
def path (p : ChartPart) : Str := c!"ppt/charts/chart" ++ dec p.number ++ c!".xml"

/-- src/parts/chart.rs 56-58. -/
def relTarget (p : ChartPart) : Str := c!"../charts/chart" ++ dec p.number ++ c!".xml"

/-- `to_xml`, src/parts/chart.rs 74-87; `none` is the error. -/
def toXml (p : ChartPart) : Option Str :=
  match p.kept, p.chart with
  | some x, _ => some x
  | none, some c => some (generateChartPartXml c)
  | none, none => none

/-- src/parts/chart.rs 89-97. -/
def fromXml (x : Str) : ChartPart := { number := 1, kept := some x }

end ChartPart

/-! ### Document properties -/

/-- `current_timestamp`, src/parts/coreprops.rs 11-38, for a clock that shows `secs` seconds since 1970. -/
def currentTimestamp (secs : Nat) : Str := (stampOf secs).text

/-- `CorePropertiesPart::new` (and `Default`), src/parts/coreprops.rs 57-72 and 121-125. -/
def CoreProps.new (secs : Nat) : CoreProps where
  creator := some c!"pptx-rs"
  lastModifiedBy := some c!"pptx-rs"
  revision := some 1
  created := some (currentTimestamp secs)
  modified := some (currentTimestamp secs)

/-- A change of the document properties. -/
inductive CoreOp where
  | title (s : Str)
  | subject (s : Str)
  | creator (s : Str)
  | keywords (s : Str)
  | description (s : Str)
  /-- at a time -/
  | touch (secs : Nat)

/-- src/parts/coreprops.rs 75-110. `none` is the overflow panic of `*rev += 1`. -/
def CoreProps.run (p : CoreProps) : CoreOp → Option CoreProps
  | .title s => some { p with title := some s }
  | .subject s => some { p with subject := some s }
  | .creator s => some { p with creator := some s }
  | .keywords s => some { p with keywords := some s }
  | .description s => some { p with description := some s }
  | .touch secs =>
    match p.revision with
    | none => some { p with modified := some (currentTimestamp secs) }
    | some r =>
      if r + 1 < 4294967296 then some { p with modified := some (currentTimestamp secs), revision := some (r + 1) }
      else none

/-- Any number of changes. -/
def CoreProps.runAll (p : CoreProps) (ops : List CoreOp) : Option CoreProps := ops.foldlM CoreProps.run p

end PptRs
