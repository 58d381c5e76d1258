import Verif.Model.Template
import Verif.Model.Builder

/-!
# Slide text

Titles, bullets and tables of a slide and the slide XML written for them. Shapes, pictures, code
blocks, connectors, charts and ink are left abstract: the XML `render_additional_content` writes for
them is a field of the slide. Sizes are natural numbers (the code multiplies `u32` values).
`to_uppercase` is modelled for ASCII letters, other characters are left unchanged.
-/

namespace PptRs

/-- src/generator/slide_content/bullet.rs 7-25. -/
inductive BulletStyle where
  | bullet | number | letterLower | letterUpper | romanLower | romanUpper
  | custom (c : Char)
  | none
deriving DecidableEq, Repr

/-- `BulletStyle::to_xml`, src/generator/slide_content/bullet.rs 29-40. -/
def BulletStyle.toXml : BulletStyle → List Part
  | .bullet => t!"<a:buChar char=\"•\"/>"
  | .number => t!"<a:buAutoNum type=\"arabicPeriod\"/>"
  | .letterLower => t!"<a:buAutoNum type=\"alphaLcPeriod\"/>"
  | .letterUpper => t!"<a:buAutoNum type=\"alphaUcPeriod\"/>"
  | .romanLower => t!"<a:buAutoNum type=\"romanLcPeriod\"/>"
  | .romanUpper => t!"<a:buAutoNum type=\"romanUcPeriod\"/>"
  | .custom ch => t!"<a:buChar char=\"{.raw [ch]}\"/>"
  | .none => t!"<a:buNone/>"

/-- `BulletTextFormat`, src/generator/slide_content/bullet.rs 57-69. -/
structure BulletTextFormat where
  bold : Bool := false
  italic : Bool := false
  underline : Bool := false
  strikethrough : Bool := false
  subscript : Bool := false
  superscript : Bool := false
  color : Option Str := .none
  highlight : Option Str := .none
  fontSize : Option Nat := .none
  fontFamily : Option Str := .none

/-- `BulletPoint`, src/generator/slide_content/bullet.rs 130-136. -/
structure BulletPoint where
  text : Str
  level : Nat := 0
  style : BulletStyle := .bullet
  format : Option BulletTextFormat := .none

/-- `ExtendedTextProps`, src/generator/layouts/common.rs 14-26. -/
structure TextProps where
  size : Nat
  bold : Bool := false
  italic : Bool := false
  underline : Bool := false
  strikethrough : Bool := false
  subscript : Bool := false
  superscript : Bool := false
  color : Option Str := .none
  highlight : Option Str := .none
  fontFamily : Option Str := .none

/-- `trim_start_matches('#').to_uppercase()`. -/
def cleanColor (c : Str) : Str := (trimStartChar '#' c).map Char.toUpper

/-- `ExtendedTextProps::with_basic`, src/generator/layouts/common.rs 36-45. -/
def TextProps.withBasic (size : Nat) (bold italic underline : Bool) (color : Option Str) : TextProps :=
  { size, bold, italic, underline, color := color.map cleanColor }

/-- `if b { "1" } else { "0" }`. -/
def flag (b : Bool) : Str := if b then c!"1" else c!"0"

/-- Parts written only if a flag is set. -/
def whenSet (b : Bool) (ps : List Part) : List Part := if b then ps else []

/-- Parts written for an optional value. -/
def whenSome {α : Type} (o : Option α) (f : α → List Part) : List Part := o.toList.flatMap f

/-- `ExtendedTextProps::to_xml`, src/generator/layouts/common.rs 47-93. -/
def TextProps.toXml (p : TextProps) : List Part :=
  t!"<a:rPr lang=\"en-US\" sz=\"{.num p.size}\" b=\"{.raw (flag p.bold)}\" i=\"{.raw (flag p.italic)}\" dirty=\"0\""
  ++ whenSet p.underline t!" u=\"sng\""
  ++ whenSet p.strikethrough t!" strike=\"sngStrike\""
  ++ whenSet p.subscript t!" baseline=\"-25000\""
  ++ whenSet (!p.subscript && p.superscript) t!" baseline=\"30000\""
  ++ t!">"
  ++ whenSome p.color (fun c => t!"<a:solidFill><a:srgbClr val=\"{.raw (cleanColor c)}\"/></a:solidFill>")
  ++ whenSome p.highlight (fun c => t!"<a:highlight><a:srgbClr val=\"{.raw (cleanColor c)}\"/></a:highlight>")
  ++ whenSome p.fontFamily (fun x => t!"<a:latin typeface=\"{.raw x}\"/><a:cs typeface=\"{.raw x}\"/>")
  ++ t!"</a:rPr>"

/-- The merged properties of a bullet with its own format,
src/generator/slide_xml/layouts.rs 16-27. -/
def mergeProps (d : TextProps) (f : BulletTextFormat) : TextProps where
  size := (f.fontSize.map (· * 100)).getD d.size
  bold := f.bold || d.bold
  italic := f.italic || d.italic
  underline := f.underline || d.underline
  strikethrough := f.strikethrough
  subscript := f.subscript
  superscript := f.superscript
  color := f.color.or d.color
  highlight := f.highlight
  fontFamily := f.fontFamily.or d.fontFamily

/-- `generate_bullet_text_props`, src/generator/slide_xml/layouts.rs 11-32. -/
def bulletProps (d : TextProps) (f : Option BulletTextFormat) : TextProps :=
  (f.map (mergeProps d)).getD d

/-- `indent`, src/generator/slide_xml/layouts.rs 39. -/
def BulletPoint.indent (b : BulletPoint) : Nat := 457200 + b.level * 457200

/-- `generate_bullet_paragraph_from_point`, src/generator/slide_xml/layouts.rs 35-57. -/
def bulletParagraph (d : TextProps) (b : BulletPoint) : List Part :=
  t!"
<a:p>
<a:pPr lvl=\"{.num b.level}\" marL=\"{.num (b.level * 457200 + b.indent)}\" indent=\"-{.num b.indent}\">
"
  ++ b.style.toXml
  ++ t!"
</a:pPr>
<a:r>
"
  ++ (bulletProps d b.format).toXml
  ++ t!"
<a:t>{.esc b.text}</a:t>
</a:r>
</a:p>"

/-- `generate_title_shape`, src/generator/slide_xml/common.rs 55-92; the same text is in
src/generator/slide_xml/layouts.rs 188-216, 294-322 and 446-474. -/
def titleShape (title : Str) (props : List Part) (x y width height : Nat) (align : Str) : List Part :=
  t!"<p:sp>
<p:nvSpPr>
<p:cNvPr id=\"2\" name=\"Title\"/>
<p:cNvSpPr txBox=\"1\"/>
<p:nvPr/>
</p:nvSpPr>
<p:spPr>
<a:xfrm>
<a:off x=\"{.num x}\" y=\"{.num y}\"/>
<a:ext cx=\"{.num width}\" cy=\"{.num height}\"/>
</a:xfrm>
<a:prstGeom prst=\"rect\"><a:avLst/></a:prstGeom>
<a:noFill/>
</p:spPr>
<p:txBody>
<a:bodyPr wrap=\"square\" rtlCol=\"0\" anchor=\"ctr\"/>
<a:lstStyle/>
<a:p>
<a:pPr algn=\"{.raw align}\"/>
<a:r>
"
  ++ props
  ++ t!"
<a:t>{.esc title}</a:t>
</a:r>
</a:p>
</p:txBody>
</p:sp>"

/-- A text box with paragraphs, src/generator/slide_xml/layouts.rs 220-265, 340-376, 380-416 and
482-527. -/
def contentBox (id : Nat) (name : Str) (x y cx cy : Nat) (paragraphs : List Part) : List Part :=
  t!"
<p:sp>
<p:nvSpPr>
<p:cNvPr id=\"{.num id}\" name=\"{.raw name}\"/>
<p:cNvSpPr txBox=\"1\"/>
<p:nvPr/>
</p:nvSpPr>
<p:spPr>
<a:xfrm>
<a:off x=\"{.num x}\" y=\"{.num y}\"/>
<a:ext cx=\"{.num cx}\" cy=\"{.num cy}\"/>
</a:xfrm>
<a:prstGeom prst=\"rect\"><a:avLst/></a:prstGeom>
<a:noFill/>
</p:spPr>
<p:txBody>
<a:bodyPr wrap=\"square\" rtlCol=\"0\"/>
<a:lstStyle/>"
  ++ paragraphs
  ++ t!"
</p:txBody>
</p:sp>"

/-- The XML declaration, the first line of `SLIDE_HEADER`. -/
def xmlDecl : Str := c!"<?xml version=\"1.0\" encoding=\"UTF-8\" standalone=\"yes\"?>\n"

/-- `SLIDE_HEADER` without its first line, src/generator/slide_xml/common.rs 6-27. -/
def slideHeader : List Part :=
  t!"<p:sld xmlns:a=\"http://schemas.openxmlformats.org/drawingml/2006/main\" xmlns:r=\"http://schemas.openxmlformats.org/officeDocument/2006/relationships\" xmlns:p=\"http://schemas.openxmlformats.org/presentationml/2006/main\">
<p:cSld>
<p:bg>
<p:bgRef idx=\"1001\">
<a:schemeClr val=\"bg1\"/>
</p:bgRef>
</p:bg>
<p:spTree>
<p:nvGrpSpPr>
<p:cNvPr id=\"1\" name=\"\"/>
<p:cNvGrpSpPr/>
<p:nvPr/>
</p:nvGrpSpPr>
<p:grpSpPr>
<a:xfrm>
<a:off x=\"0\" y=\"0\"/>
<a:ext cx=\"9144000\" cy=\"6858000\"/>
<a:chOff x=\"0\" y=\"0\"/>
<a:chExt cx=\"9144000\" cy=\"6858000\"/>
</a:xfrm>
</p:grpSpPr>"

/-- `SLIDE_FOOTER` without the last end tag, src/generator/slide_xml/common.rs 30-36. -/
def slideFooter : List Part :=
  t!"
</p:spTree>
</p:cSld>
<p:clrMapOvr>
<a:masterClrMapping/>
</p:clrMapOvr>
"

/-- `TransitionType`, src/generator/slide_content/transition.rs 7-18. -/
inductive Transition where
  | none | fade | cut | push | wipe | split | reveal | cover | zoom
deriving DecidableEq, Repr

/-- `TransitionType::to_xml`, src/generator/slide_content/transition.rs 22-34. -/
def Transition.toXml : Transition → List Part
  | .none => []
  | .cut => []
  | .fade => t!"<p:transition><p:fade/></p:transition>"
  | .push => t!"<p:transition><p:push dir=\"r\"/></p:transition>"
  | .wipe => t!"<p:transition><p:wipe dir=\"r\"/></p:transition>"
  | .split => t!"<p:transition><p:split dir=\"out\" orient=\"horz\"/></p:transition>"
  | .reveal => t!"<p:transition><p:reveal dir=\"r\"/></p:transition>"
  | .cover => t!"<p:transition><p:cover dir=\"r\"/></p:transition>"
  | .zoom => t!"<p:transition><p:zoom dir=\"in\"/></p:transition>"

/-! ### Tables -/

/-- src/generator/table/cell.rs 5-11. -/
inductive CellAlign where
  | left | center | right | justify
deriving DecidableEq, Repr

/-- src/generator/table/cell.rs 15-22. -/
def CellAlign.asStr : CellAlign → Str
  | .left => c!"l"
  | .center => c!"ctr"
  | .right => c!"r"
  | .justify => c!"just"

/-- src/generator/table/cell.rs 27-32. -/
inductive CellVAlign where
  | top | middle | bottom
deriving DecidableEq, Repr

/-- src/generator/table/cell.rs 36-42. -/
def CellVAlign.asStr : CellVAlign → Str
  | .top => c!"t"
  | .middle => c!"ctr"
  | .bottom => c!"b"

/-- `TableCell`, src/generator/table/cell.rs 47-79. -/
structure CellIn where
  text : Str
  bold : Bool := false
  italic : Bool := false
  underline : Bool := false
  textColor : Option Str := .none
  backgroundColor : Option Str := .none
  fontSize : Option Nat := .none
  fontFamily : Option Str := .none
  align : CellAlign := .center
  valign : CellVAlign := .middle
  gridSpan : Option Nat := .none
  rowSpan : Option Nat := .none
  hMerge : Bool := false
  vMerge : Bool := false

/-- A row: its height and its cells. -/
structure RowIn where
  height : Option Nat
  cells : List CellIn

/-- `Table`, src/generator/table/builder.rs. -/
structure TableIn where
  rows : List RowIn
  columnWidths : List Nat
  x : Nat
  y : Nat

/-- `color_to_xml`, src/generator/text/format.rs 207-210. -/
def colorToXml (c : Str) : List Part :=
  t!"<a:solidFill><a:srgbClr val=\"{.raw (cleanColor c)}\"/></a:solidFill>"

/-- `merge_attrs_from_cell`, src/generator/table/format.rs 35-46 with
src/generator/slide_content/table_merge.rs 68-84. -/
def mergeAttrs (c : CellIn) : List Part :=
  if c.hMerge then t!" hMerge=\"1\""
  else if c.vMerge then t!" vMerge=\"1\""
  else whenSet (c.gridSpan.getD 1 > 1) t!" gridSpan=\"{.num (c.gridSpan.getD 1)}\""
    ++ whenSet (c.rowSpan.getD 1 > 1) t!" rowSpan=\"{.num (c.rowSpan.getD 1)}\""

/-- `TextFormat::to_xml_attrs` on the format of a cell, src/generator/text/format.rs 87-117 (a
cell's format has no strikethrough, subscript or superscript). -/
def cellFormatAttrs (c : CellIn) : List Part :=
  whenSet c.bold t!" b=\"1\""
  ++ whenSet c.italic t!" i=\"1\""
  ++ whenSet c.underline t!" u=\"sng\""
  ++ whenSome c.fontSize (fun s => t!" sz=\"{.num (s * 100)}\"")

/-- The children of a cell's run properties, src/generator/table/format.rs 52-61. -/
def cellRunKids (c : CellIn) : List Part :=
  whenSome c.textColor colorToXml
  ++ whenSome c.fontFamily (fun x => t!"<a:latin typeface=\"{.esc x}\"/>")

/-- `run_properties_xml`, src/generator/table/format.rs 49-70. -/
def cellRunProps (c : CellIn) : List Part :=
  t!"<a:rPr lang=\"en-US\" dirty=\"0\"" ++ cellFormatAttrs c ++
    (if c.textColor.isNone && c.fontFamily.isNone then t!"/>"
     else t!">" ++ cellRunKids c ++ t!"</a:rPr>")

/-- `paragraph_props_xml`, src/generator/table/format.rs 73-79. -/
def cellParagraphProps (c : CellIn) : List Part :=
  if c.align = .center then [] else t!"<a:pPr algn=\"{.raw c.align.asStr}\"/>"

/-- The anchor attribute, src/generator/table/format.rs 89-93. -/
def cellAnchor (c : CellIn) : List Part :=
  if c.valign = .middle then [] else t!" anchor=\"{.raw c.valign.asStr}\""

/-- `tc_properties_xml`, src/generator/table/format.rs 88-105. -/
def cellProps (c : CellIn) : List Part :=
  if c.backgroundColor.isSome then
    t!"<a:tcPr" ++ cellAnchor c ++ t!">" ++ whenSome c.backgroundColor colorToXml ++ t!"</a:tcPr>"
  else t!"<a:tcPr" ++ cellAnchor c ++ t!"/>"

/-- The paragraph of a cell, src/generator/table/format.rs 123-129. -/
def cellParagraph (c : CellIn) : List Part :=
  if c.text = [] then t!"<a:p><a:endParaRPr lang=\"en-US\"/></a:p>"
  else t!"<a:p>" ++ cellParagraphProps c ++ t!"<a:r>" ++ cellRunProps c
    ++ t!"<a:t>{.esc c.text}</a:t></a:r></a:p>"

/-- `generate_cell_xml`, src/generator/table/format.rs 109-134. -/
def cellXml (c : CellIn) : List Part :=
  if c.hMerge || c.vMerge then
    t!"<a:tc" ++ mergeAttrs c
      ++ t!"><a:txBody><a:bodyPr/><a:lstStyle/><a:p><a:endParaRPr/></a:p></a:txBody><a:tcPr/></a:tc>"
  else
    t!"<a:tc" ++ mergeAttrs c ++ t!"><a:txBody><a:bodyPr/><a:lstStyle/>" ++ cellParagraph c
      ++ t!"</a:txBody>" ++ cellProps c ++ t!"</a:tc>"

/-- `generate_row_xml`, src/generator/table/xml.rs 52-67. -/
def rowXml (r : RowIn) (idx : Nat) : List Part :=
  t!"<a:tr h=\"{.num (r.height.getD 400000)}\">" ++ r.cells.flatMap cellXml
    ++ t!"<a:extLst><a:ext uri=\"\x7b0D108BD9-81ED-4DB2-BD59-A6C34878D82A}\"><a16:rowId xmlns:a16=\"http://schemas.microsoft.com/office/drawing/2014/main\" val=\"{.num (10000 + idx)}\"/></a:ext></a:extLst></a:tr>"

/-- One column, src/generator/table/xml.rs 33-38. -/
def columnXml (w idx : Nat) : List Part :=
  t!"<a:gridCol w=\"{.num w}\"><a:extLst><a:ext uri=\"\x7b9D8B030D-6E8A-4147-A177-3AD203B41FA5}\"><a16:colId xmlns:a16=\"http://schemas.microsoft.com/office/drawing/2014/main\" val=\"{.num (20000 + idx)}\"/></a:ext></a:extLst></a:gridCol>"

/-- `generate_table_xml`, src/generator/table/xml.rs 9-49, for shape id 3. -/
def tableXml (t : TableIn) : List Part :=
  t!"<p:graphicFrame><p:nvGraphicFramePr><p:cNvPr id=\"3\" name=\"Table 3\"/><p:cNvGraphicFramePr/><p:nvPr/></p:nvGraphicFramePr><p:xfrm><a:off x=\"{.num t.x}\" y=\"{.num t.y}\"/><a:ext cx=\"{.num t.columnWidths.sum}\" cy=\"{.num (t.rows.map fun r => r.height.getD 400000).sum}\"/></p:xfrm><a:graphic><a:graphicData uri=\"http://schemas.openxmlformats.org/drawingml/2006/table\"><a:tbl><a:tblPr firstRow=\"1\" bandRow=\"1\"/><a:tblGrid>"
  ++ t.columnWidths.zipIdx.flatMap (fun w => columnXml w.1 w.2)
  ++ t!"</a:tblGrid>"
  ++ t.rows.zipIdx.flatMap (fun r => rowXml r.1 r.2)
  ++ t!"</a:tbl></a:graphicData></a:graphic></p:graphicFrame>"

/-! ### Slides -/

/-- The part of `SlideContent` (src/generator/slide_content/content.rs 20-57) that determines the
text of a slide. -/
structure SlideText where
  title : Str
  content : List Str := []
  bullets : List BulletPoint := []
  bulletStyle : BulletStyle := .bullet
  titleSize : Option Nat := some 44
  contentSize : Option Nat := some 28
  titleBold : Bool := true
  contentBold : Bool := false
  titleItalic : Bool := false
  contentItalic : Bool := false
  titleUnderline : Bool := false
  contentUnderline : Bool := false
  titleColor : Option Str := .none
  contentColor : Option Str := .none
  layout : SlideLayout := .titleAndContent
  transition : Transition := .none
  table : Option TableIn := .none
  /-- what `render_additional_content` writes -/
  extra : List Part := []

/-- `SlideContent::new`, src/generator/slide_content/content.rs 60-92. -/
def SlideText.new (title : Str) : SlideText := { title }

/-- `add_bullet`, src/generator/slide_content/content.rs 101-105. -/
def SlideText.addBullet (s : SlideText) (t : Str) : SlideText :=
  { s with content := s.content ++ [t], bullets := s.bullets ++ [{ text := t, style := s.bulletStyle }] }

/-- `add_styled_bullet` (and `add_numbered`, `add_lettered`),
src/generator/slide_content/content.rs 108-126. -/
def SlideText.addStyledBullet (s : SlideText) (t : Str) (style : BulletStyle) : SlideText :=
  { s with content := s.content ++ [t], bullets := s.bullets ++ [{ text := t, style }] }

/-- `add_sub_bullet`, src/generator/slide_content/content.rs 129-133. -/
def SlideText.addSubBullet (s : SlideText) (t : Str) : SlideText :=
  { s with content := s.content ++ [c!"  " ++ t]
           bullets := s.bullets ++ [{ text := t, level := 1, style := s.bulletStyle }] }

/-- The bullets that are written: the styled ones, or the plain ones if there are none,
src/generator/slide_xml/layouts.rs 250-259, 333-334 and 512-521. -/
def SlideText.effective (s : SlideText) : List BulletPoint :=
  if s.bullets ≠ [] then s.bullets
  else s.content.map fun t => { text := t, style := s.bulletStyle }

/-- The properties of the title, src/generator/slide_xml/layouts.rs 77-84. -/
def SlideText.titleProps (s : SlideText) (default : Nat) (bold : Bool) : TextProps :=
  .withBasic (s.titleSize.getD default * 100) bold s.titleItalic s.titleUnderline s.titleColor

/-- The properties of the bullets, src/generator/slide_xml/layouts.rs 241-247. -/
def SlideText.contentProps (s : SlideText) (default : Nat) : TextProps :=
  .withBasic (s.contentSize.getD default * 100) s.contentBold s.contentItalic false s.contentColor

/-- The paragraphs of some bullets. -/
def paragraphs (d : TextProps) (l : List BulletPoint) : List Part := l.flatMap (bulletParagraph d)

/-- The two columns, src/generator/slide_xml/layouts.rs 332-418; `mid` is `div_ceil(2)`. -/
def twoColumns (d : TextProps) (l : List BulletPoint) : List Part :=
  let mid := (l.length + 1) / 2
  if 0 < l.length then
    contentBox 3 c!"Left Content" 457200 1189200 4115100 5668800 (paragraphs d (l.take mid))
    ++ (if mid < l.length then
          contentBox 4 c!"Right Content" 4572300 1189200 4115100 5668800 (paragraphs d (l.drop mid))
        else [])
  else []

/-- The single text box, src/generator/slide_xml/layouts.rs 219-266 and 480-528. -/
def oneColumn (y cy : Nat) (d : TextProps) (l : List BulletPoint) : List Part :=
  if l ≠ [] then contentBox 3 c!"Content" 457200 y 8230200 cy (paragraphs d l) else []

/-- The shapes of a slide by layout: `create_blank_slide`, `create_title_only_slide`,
`create_section_header_slide`, `create_centered_title_slide`, `create_title_and_big_content_slide`,
`create_two_column_slide` and `create_title_and_content_slide`,
src/generator/slide_xml/layouts.rs 60-535. -/
def SlideText.shapes (s : SlideText) : List Part :=
  match s.layout with
  | .blank => []
  | .titleOnly =>
    t!"\n" ++ titleShape s.title (s.titleProps 44 s.titleBold).toXml 457200 274638 8230200 1143000 c!"l"
  | .sectionHeader =>
    t!"\n" ++ titleShape s.title (s.titleProps 48 true).toXml 457200 1600200 8229600 1828800 c!"ctr"
  | .centeredTitle =>
    t!"\n" ++ titleShape s.title (s.titleProps 54 s.titleBold).toXml 457200 2743200 8230200 1371600 c!"ctr"
  | .titleAndBigContent =>
    t!"\n" ++ titleShape s.title (s.titleProps 44 s.titleBold).toXml 457200 274638 8230200 914400 c!"l"
      ++ oneColumn 1189200 5668800 (s.contentProps 28) s.effective
  | .twoColumn =>
    t!"\n" ++ titleShape s.title (s.titleProps 44 s.titleBold).toXml 457200 274638 8230200 914400 c!"l"
      ++ twoColumns (s.contentProps 24) s.effective
  | .titleAndContent =>
    t!"\n" ++ titleShape s.title (s.titleProps 44 s.titleBold).toXml 457200 274638 8230200 1143000 c!"l"
      ++ (if s.table.isSome then t!"\n" ++ whenSome s.table tableXml
          else oneColumn 1600200 4572000 (s.contentProps 28) s.effective)

/-- The slide after the XML declaration. -/
def SlideText.body (s : SlideText) : List Part :=
  slideHeader ++ s.shapes ++ s.extra ++ slideFooter ++ s.transition.toXml ++ t!"</p:sld>"

/-- `create_slide_xml_with_content`, src/generator/slide_xml/mod.rs 78-102. The transition is
inserted before the last `</p:sld>`, which is the end of `SLIDE_FOOTER`. -/
def SlideText.xml (s : SlideText) : Str := xmlDecl ++ fmt s.body

end PptRs
