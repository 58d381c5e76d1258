import Verif.Model.Units
import Verif.Model.SlideText
import Verif.Model.Templates

/-!
The quick ways of making shapes, colours and presentations: src/prelude.rs, src/helpers/mod.rs and
src/elements/color.rs, and the slides of a presentation without content, src/generator/slide_xml/mod.rs.
-/

namespace PptRs.Quick

open PptRs.Fl PptRs.Units PptRs.Draw

/-! ### Colours -/

/-- `SchemeColor`, src/elements/color.rs 70-87. -/
inductive SchemeColor where
  | accent1 | accent2 | accent3 | accent4 | accent5 | accent6 | dark1 | dark2 | light1 | light2
  | hyperlink | followedHyperlink | background1 | background2 | text1 | text2
deriving DecidableEq

/-- `as_str`, src/elements/color.rs 90-109. -/
def SchemeColor.asStr : SchemeColor → Str
  | .accent1 => c!"accent1"
  | .accent2 => c!"accent2"
  | .accent3 => c!"accent3"
  | .accent4 => c!"accent4"
  | .accent5 => c!"accent5"
  | .accent6 => c!"accent6"
  | .dark1 => c!"dk1"
  | .dark2 => c!"dk2"
  | .light1 => c!"lt1"
  | .light2 => c!"lt2"
  | .hyperlink => c!"hlink"
  | .followedHyperlink => c!"folHlink"
  | .background1 => c!"bg1"
  | .background2 => c!"bg2"
  | .text1 => c!"tx1"
  | .text2 => c!"tx2"

/-- `Color`, src/elements/color.rs 120-123. -/
inductive Color where
  | rgb (c : RgbColor)
  | scheme (c : SchemeColor)
deriving DecidableEq

/-- `to_xml`, src/elements/color.rs 56-60, 112-116 and 142-149. -/
def Color.toXml : Color → List Part
  | .rgb c => t!"<a:srgbClr val=\"{.raw c.toHex}\"/>"
  | .scheme c => t!"<a:schemeClr val=\"{.raw c.asStr}\"/>"

/-- `hex`, src/helpers/mod.rs 230-240; `none` is a panic. -/
def hex (color : Str) : Option Color :=
  let color := trimStartChar '#' color
  if utf8Len color = 6 then
    (byteSlice color 0 2).bind fun x => (byteSlice color 2 4).bind fun y => (byteSlice color 4 6).map fun z =>
      .rgb ⟨(parseHexU8 x).getD 0, (parseHexU8 y).getD 0, (parseHexU8 z).getD 0⟩
  else some (.rgb ⟨0, 0, 0⟩)

/-- The text of a colour in `fill` and `stroke`, src/helpers/mod.rs 328-331 and 336-339. -/
def colorText : Color → Str
  | .rgb c => c.toHex
  | .scheme _ => c!"000000"

/-- `ShapeExt::fill`, src/helpers/mod.rs 327-333. -/
def fill (s : Shape) (c : Color) : Shape := s.withFill (.new (colorText c))

/-- `ShapeExt::stroke`, src/helpers/mod.rs 335-342; `with_line`, src/generator/shapes.rs 648-651. -/
def stroke (s : Shape) (c : Color) (points : Val) : Shape := { s with line := some (.new (colorText c) (scaled perPt points)) }

/-- `ShapeExt::text`, src/helpers/mod.rs 344-346; `with_text`, src/generator/shapes.rs 654-657. -/
def text (s : Shape) (t : Str) : Shape := { s with text := some t }

/-! ### Shapes -/

/-- `inches`, src/prelude.rs 152-154. -/
def inches (v : Val) : Nat := scaled perInch v

/-- `Shape::new` with lengths in inches. -/
def boxShape (k : ShapeType) (x y w h : Val) : Shape := { kind := k, x := inches x, y := inches y, width := inches w, height := inches h }

/-- `Shape::from_dimensions` with lengths in inches, as in src/helpers/mod.rs 66-74. -/
def dimShape (k : ShapeType) (x y w h : Val) : Shape := fromDimensions k (.inches x) (.inches y) (.inches w) (.inches h)

/-- The functions that make shapes. -/
inductive Figure where
  | hRect (x y w h : Val)
  | hCircle (x y s : Val)
  | hEllipse (x y w h : Val)
  | hRounded (x y w h : Val)
  | hTriangle (x y w h : Val)
  | hDiamond (x y w h : Val)
  | mRect (x y w h : Val)
  | mCircle (x y s : Val)
  | rect (x y w h : Val)
  | circle (x y s : Val)
  | rounded (x y w h : Val)
  | textBox (x y w h : Val) (t : Str)
  | arrowRight (x y w h : Val)
  | arrowLeft (x y w h : Val)
  | arrowUp (x y w h : Val)
  | arrowDown (x y w h : Val)
  | diamond (x y s : Val)
  | triangle (x y w h : Val)
  | star (x y s : Val)
  | heart (x y s : Val)
  | cloud (x y w h : Val)
  | callout (x y w h : Val) (t : Str)
  | process (x y w h : Val) (t : Str)
  | decision (x y s : Val) (t : Str)
  | document (x y w h : Val) (t : Str)
  | data (x y w h : Val) (t : Str)
  | terminator (x y w h : Val) (t : Str)
  | badge (x y : Val) (t color : Str)

/-- The shapes they make: src/helpers/mod.rs 66-169 and src/prelude.rs 130-483 (the macro `shape!` and the
module `shapes`). -/
def Figure.shape : Figure → Shape
  | .hRect x y w h => dimShape .rectangle x y w h -- src/helpers/mod.rs 66-74
  | .hCircle x y s => dimShape .ellipse x y s s -- src/helpers/mod.rs 85-93
  | .hEllipse x y w h => dimShape .ellipse x y w h -- src/helpers/mod.rs 104-112
  | .hRounded x y w h => dimShape .roundedRectangle x y w h -- src/helpers/mod.rs 123-131
  | .hTriangle x y w h => dimShape .triangle x y w h -- src/helpers/mod.rs 142-150
  | .hDiamond x y w h => dimShape .diamond x y w h -- src/helpers/mod.rs 161-169
  | .mRect x y w h => boxShape .rectangle x y w h -- src/prelude.rs 130-138
  | .mCircle x y s => boxShape .circle x y s s -- src/prelude.rs 140-148
  | .rect x y w h => boxShape .rectangle x y w h -- src/prelude.rs 233-241
  | .circle x y s => boxShape .circle x y s s -- src/prelude.rs 249-257
  | .rounded x y w h => boxShape .roundedRectangle x y w h -- src/prelude.rs 265-273
  | .textBox x y w h t => text (boxShape .rectangle x y w h) t -- src/prelude.rs 276-285
  | .arrowRight x y w h => boxShape .rightArrow x y w h -- src/prelude.rs 302-310
  | .arrowLeft x y w h => boxShape .leftArrow x y w h -- src/prelude.rs 313-321
  | .arrowUp x y w h => boxShape .upArrow x y w h -- src/prelude.rs 324-332
  | .arrowDown x y w h => boxShape .downArrow x y w h -- src/prelude.rs 335-343
  | .diamond x y s => boxShape .diamond x y s s -- src/prelude.rs 346-354
  | .triangle x y w h => boxShape .triangle x y w h -- src/prelude.rs 357-365
  | .star x y s => boxShape .star5 x y s s -- src/prelude.rs 368-376
  | .heart x y s => boxShape .heart x y s s -- src/prelude.rs 379-387
  | .cloud x y w h => boxShape .cloud x y w h -- src/prelude.rs 390-398
  | .callout x y w h t => text (boxShape .wedgeRectCallout x y w h) t -- src/prelude.rs 401-410
  | .process x y w h t => text (boxShape .flowChartProcess x y w h) t -- src/prelude.rs 426-435
  | .decision x y s t => text (boxShape .flowChartDecision x y s s) t -- src/prelude.rs 438-447
  | .document x y w h t => text (boxShape .flowChartDocument x y w h) t -- src/prelude.rs 450-459
  | .data x y w h t => text (boxShape .flowChartData x y w h) t -- src/prelude.rs 462-471
  | .terminator x y w h t => text (boxShape .flowChartTerminator x y w h) t -- src/prelude.rs 474-483
  | .badge x y t color => -- src/prelude.rs 413-423
    text ((boxShape .roundedRectangle x y (.fin (3 / 2)) (mk b64 (4 / 10))).withFill (.new color)) t

/-- `rect_emu` and `circle_emu`, src/prelude.rs 244-246 and 260-262. -/
def emuShape (k : ShapeType) (x y w h : Nat) : Shape := { kind := k, x, y, width := w, height := h }

/-- `rect_ratio` and `text_box_ratio`, src/prelude.rs 515-528. -/
def ratioShape (x y w h : Val) (t : Option Str) : Shape :=
  { fromDimensions .rectangle (.ratio x) (.ratio y) (.ratio w) (.ratio h) with text := t }

/-- `colored`, src/prelude.rs 288-294. -/
def colored (s : Shape) (color : Str) (line : Option Str) : Shape :=
  match line with
  | none => s.withFill (.new color)
  | some l => { s.withFill (.new color) with line := some (.new l 12700) }

/-- `gradient`, src/prelude.rs 297-299. -/
def gradient (s : Shape) (a b : Str) (d : GradientDirection) : Shape := s.withGradient (.linear a b d)

/-! ### Presentations -/

/-- The title of a slide without content, src/generator/slide_xml/mod.rs 21-25. -/
def plainTitle (n : Nat) (title : Str) : Str := if n = 1 then title else c!"Slide " ++ dec n

/-- The text of `create_slide_xml` after the declaration, src/generator/slide_xml/mod.rs 29-73. -/
def plainSlideBody (slideTitle : Str) : List Part :=
  t!"<p:sld xmlns:a=\"http://schemas.openxmlformats.org/drawingml/2006/main\" xmlns:r=\"http://schemas.openxmlformats.org/officeDocument/2006/relationships\" xmlns:p=\"http://schemas.openxmlformats.org/presentationml/2006/main\">\n<p:cSld>\n<p:spTree>\n<p:nvGrpSpPr>\n<p:cNvPr id=\"1\" name=\"\"/>\n<p:cNvGrpSpPr/>\n<p:nvPr/>\n</p:nvGrpSpPr>\n<p:grpSpPr>\n<a:xfrm>\n<a:off x=\"0\" y=\"0\"/>\n<a:ext cx=\"0\" cy=\"0\"/>\n<a:chOff x=\"0\" y=\"0\"/>\n<a:chExt cx=\"0\" cy=\"0\"/>\n</a:xfrm>\n</p:grpSpPr>\n<p:sp>\n<p:nvSpPr>\n<p:cNvPr id=\"2\" name=\"Title 1\"/>\n<p:cNvSpPr>\n<a:spLocks noGrp=\"1\"/>\n</p:cNvSpPr>\n<p:nvPr>\n<p:ph type=\"ctrTitle\"/>\n</p:nvPr>\n</p:nvSpPr>\n<p:spPr/>\n<p:txBody>\n<a:bodyPr/>\n<a:lstStyle/>\n<a:p>\n<a:r>\n<a:rPr lang=\"en-US\"/>\n<a:t>{.raw slideTitle}</a:t>\n</a:r>\n<a:endParaRPr lang=\"en-US\"/>\n</a:p>\n</p:txBody>\n</p:sp>\n</p:spTree>\n</p:cSld>\n<p:clrMapOvr>\n<a:masterClrMapping/>\n</p:clrMapOvr>\n</p:sld>"

/-- `create_slide_xml`, src/generator/slide_xml/mod.rs 20-75. -/
def plainSlideXml (n : Nat) (title : Str) : Str := xmlDecl ++ fmt (plainSlideBody (plainTitle n title))

/-- The slides of `create_pptx`: src/generator/builder.rs 125-137 and 1198-1205. -/
def createPptx (_title : Str) (count : Nat) : List Str :=
  (List.range count).map fun i => plainSlideXml (i + 1) c!"Presentation"

/-- The titles that are listed in the properties of the document: `collect_slide_titles`,
src/generator/builder.rs 465-482. A slide with a blank title is listed by its number. -/
def listedTitles : Option (List Str) → Nat → List Str
  | some l, _ => l.mapIdx fun i t => if t.all isWs then c!"Slide " ++ dec (i + 1) else t
  | none, count => (List.range count).map fun i => c!"Slide " ++ dec (i + 1)

/-- A slide of the quick builder: its text and its shapes. -/
structure QuickSlide where
  text : SlideText
  shapes : List Shape := []

/-- The calls of `QuickPptx`, src/prelude.rs 182-208. -/
inductive QuickCall where
  | slide (title : Str) (bullets : List Str)
  | titleSlide (title : Str)
  | content (s : QuickSlide)
  | shapes (title : Str) (l : List Shape)

/-- `QuickPptx`: src/prelude.rs 167-170 and 182-208. -/
def QuickCall.run (slides : List QuickSlide) : QuickCall → List QuickSlide
  | .slide t l => slides ++ [⟨Templates.bulletSlide t l, []⟩]
  | .titleSlide t => slides ++ [⟨.new t, []⟩]
  | .content s => slides ++ [s]
  | .shapes t l => slides ++ [⟨.new t, l⟩]

/-- The slides that are given to the generator; `none` if there are none, so that `create_pptx` is called
with one slide: src/prelude.rs 211-218. -/
def quickBuild (calls : List QuickCall) : Option (List QuickSlide) :=
  let slides := calls.foldl QuickCall.run []
  if slides = [] then none else some slides

end PptRs.Quick
