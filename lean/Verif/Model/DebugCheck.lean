import Verif.Model.FullText
import Verif.Model.Drawing
import Verif.Model.Validate
import Verif.Model.Charts

/-!
# Slides with everything on them, and the check of debug builds

`create_pptx` and `create_pptx_with_settings` end with `debug_assert_package_valid`, src/generator/builder.rs 110-122: in debug
builds they panic if the library's own validator finds an error in the file.
-/

namespace PptRs.Full

open PptRs PptRs.Draw PptRs.Settings

/-- `SlideContent`, src/generator/slide_content/content.rs 18-57, with the bytes of its images. -/
structure Sheet where
  text : SlideText
  notes : Option Str := none
  shapes : List Shape := []
  images : List (Picture × ImageIn) := []
  codeBlocks : List CodeBlock := []
  connectors : List Connector := []
  charts : List ChartBox := []
  ink : Bool := false

/-- What is drawn. -/
def Sheet.drawing (p : Sheet) : Drawing where
  shapes := p.shapes
  pictures := p.images.map (·.1)
  codeBlocks := p.codeBlocks
  connectors := p.connectors
  charts := p.charts
  notes := p.notes.isSome

/-- What the package structure depends on. -/
def Sheet.slideIn (p : Sheet) : SlideIn where
  title := p.text.title
  layout := p.text.layout
  bullets := p.text.effective.length
  hasTable := p.text.table.isSome
  shapes := p.shapes.map fun s => ⟨s.id, s.link.map fun l => ⟨l.action, l.rId⟩⟩
  images := p.images.map (·.2)
  notes := p.notes
  codeBlocks := p.codeBlocks.length
  connectors := p.connectors.length
  charts := p.charts.length
  ink := p.ink

/-- The relationship id of the first chart, src/generator/builder.rs 1160-1167. -/
def Sheet.startRid (p : Sheet) : Nat := slideContentRelStart p.notes.isSome p.images.length

/-- The relationship id of the ink, src/generator/builder.rs 1168-1176. -/
def Sheet.inkRid (p : Sheet) : Str := c!"rId" ++ dec (p.startRid + p.charts.length)

/-- The text of the slide: `create_slide_xml_with_content` with `render_additional_content`, src/generator/slide_xml/mod.rs 78-102
and content.rs 7-88. `fontSize` and `highlight` are as for `Drawing.xml`; `none` is a panic. -/
def Sheet.xml (fontSize : Str → Nat → Nat → Nat) (highlight : Option (Str → Str → List (List Segment))) (p : Sheet) : Option Str :=
  (p.drawing.xml fontSize highlight (chartRids p.startRid p.charts.length)).map fun x =>
    SlideText.xml { p.text with extra := x ++ whenSet p.ink (inkRefXml p.inkRid) }

/-- The deck of the slides. -/
def sheetsDeck (l : List Sheet) : Deck := .custom (l.map Sheet.slideIn)

/-- The texts of the slides, their charts and their ink, src/generator/builder.rs 1148-1181 and 1360-1377. -/
def ownTexts (fontSize : Str → Nat → Nat → Nat) (highlight : Option (Str → Str → List (List Segment))) (l : List Sheet)
    (charts : List Chart) (inks : List (List Settings.Stroke)) : PartTexts
  | .slide n => (l[n - 1]?).bind (Sheet.xml fontSize highlight)
  | .chart n => (charts[n - 1]?).map generateChartPartXml
  | .ink n => (inks[n - 1]?).map Settings.inkPartXml
  | _ => none

/-- `debug_assert_package_valid`, src/generator/builder.rs 110-122: whether the assertion holds. All findings of the validator are
errors (src/core/package_validation/rules.rs has no warnings), so a report is valid if there are none (report.rs 69-73). -/
def debugAssert (a : Validate.Archive) : Bool := (Validate.validatePackage a).isEmpty

/-- `create_pptx_with_settings`, src/generator/builder.rs 176-192, and `create_pptx`, 125-137, in a debug build (`true`) or a release
build: `none` is a panic. -/
def createChecked (debug : Bool) (d : Deck) (S : FileSettings) (secs : Nat) (title : Str) (own : PartTexts) : Option Validate.Archive :=
  let a := fileArchive d S secs title own
  if debug && !debugAssert a then none else some a

end PptRs.Full
