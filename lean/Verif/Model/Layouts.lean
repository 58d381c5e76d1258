import Verif.Model.Drawing
import Verif.Model.SlideText

/-!
# The second writer of slides

`src/generator/layouts`: `create_slide_xml_for_layout`, which is public but not used by the builder of
presentations. The last line feed of a piece is written separately here, so that pieces can be read one
by one; the text is the same. Of a picture only the name and the place matter.
-/

namespace PptRs.Layouts

open PptRs PptRs.Draw

/-- What the writer reads of a slide, besides the text: src/generator/slide_content/content.rs 20-57. -/
structure Page where
  text : SlideText
  shapes : List Shape := []
  images : List Picture := []

/-- `ShapePosition`, src/generator/layouts/common.rs 112-125. -/
structure Place where
  x : Nat
  y : Nat
  cx : Nat
  cy : Nat

/-- The text of `start_slide_with_bg` and `start_sp_tree`, src/generator/layouts/common.rs 10-11 and 153-170. -/
def pageOpen : List Part :=
  t!"<p:sld xmlns:a=\"http://schemas.openxmlformats.org/drawingml/2006/main\" xmlns:r=\"http://schemas.openxmlformats.org/officeDocument/2006/relationships\" xmlns:p=\"http://schemas.openxmlformats.org/presentationml/2006/main\">
<p:cSld>
<p:bg><p:bgRef idx=\"1001\"><a:schemeClr val=\"bg1\"/></p:bgRef></p:bg>
<p:spTree>
<p:nvGrpSpPr><p:cNvPr id=\"1\" name=\"\"/><p:cNvGrpSpPr/><p:nvPr/></p:nvGrpSpPr>
<p:grpSpPr><a:xfrm><a:off x=\"0\" y=\"0\"/><a:ext cx=\"9144000\" cy=\"6858000\"/><a:chOff x=\"0\" y=\"0\"/><a:chExt cx=\"9144000\" cy=\"6858000\"/></a:xfrm></p:grpSpPr>"

/-- `start_slide_with_bg` and `start_sp_tree` after the declaration, src/generator/layouts/common.rs 10-11
and 153-170. -/
def head : List Part :=
  pageOpen ++ t!"\n"

/-- `end_sp_tree` and `end_slide`, src/generator/layouts/common.rs 298-307. -/
def tail : List Part :=
  t!"</p:spTree>
</p:cSld>
<p:clrMapOvr><a:masterClrMapping/></p:clrMapOvr>
</p:sld>"

/-- The text of `add_title`, src/generator/layouts/common.rs 173-201. -/
def titleBox (id : Nat) (p : Place) (text : Str) (props : TextProps) (ph : Str) : List Part :=
  t!"<p:sp>
<p:nvSpPr>
<p:cNvPr id=\"{.num id}\" name=\"Title\"/>
<p:cNvSpPr><a:spLocks noGrp=\"1\"/></p:cNvSpPr>
<p:nvPr><p:ph type=\"{.raw ph}\"/></p:nvPr>
</p:nvSpPr>
<p:spPr>
<a:xfrm><a:off x=\"{.num p.x}\" y=\"{.num p.y}\"/><a:ext cx=\"{.num p.cx}\" cy=\"{.num p.cy}\"/></a:xfrm>
<a:prstGeom prst=\"rect\"><a:avLst/></a:prstGeom>
<a:noFill/>
</p:spPr>
<p:txBody>
<a:bodyPr/>
<a:lstStyle/>
<a:p>
<a:r>
"
  ++ props.toXml
  ++ t!"
<a:t>{.esc text}</a:t>
</a:r>
</a:p>
</p:txBody>
</p:sp>"

/-- `add_title`, src/generator/layouts/common.rs 173-201. -/
def addTitle (id : Nat) (p : Place) (text : Str) (props : TextProps) (ph : Str) : List Part :=
  titleBox id p text props ph ++ t!"\n"

/-- The text of `add_centered_title`, src/generator/layouts/common.rs 204-233. -/
def centeredBox (id : Nat) (p : Place) (text : Str) (props : TextProps) : List Part :=
  t!"<p:sp>
<p:nvSpPr>
<p:cNvPr id=\"{.num id}\" name=\"Title\"/>
<p:cNvSpPr><a:spLocks noGrp=\"1\"/></p:cNvSpPr>
<p:nvPr><p:ph type=\"ctrTitle\"/></p:nvPr>
</p:nvSpPr>
<p:spPr>
<a:xfrm><a:off x=\"{.num p.x}\" y=\"{.num p.y}\"/><a:ext cx=\"{.num p.cx}\" cy=\"{.num p.cy}\"/></a:xfrm>
<a:prstGeom prst=\"rect\"><a:avLst/></a:prstGeom>
<a:noFill/>
</p:spPr>
<p:txBody>
<a:bodyPr/>
<a:lstStyle/>
<a:p>
<a:pPr algn=\"ctr\"/>
<a:r>
"
  ++ props.toXml
  ++ t!"
<a:t>{.esc text}</a:t>
</a:r>
</a:p>
</p:txBody>
</p:sp>"

/-- `add_centered_title`, src/generator/layouts/common.rs 204-233. -/
def addCentered (id : Nat) (p : Place) (text : Str) (props : TextProps) : List Part :=
  centeredBox id p text props ++ t!"\n"

/-- The text of `start_content_body`, src/generator/layouts/common.rs 236-256. -/
def bodyOpen (id : Nat) (p : Place) : List Part :=
  t!"<p:sp>
<p:nvSpPr>
<p:cNvPr id=\"{.num id}\" name=\"Content\"/>
<p:cNvSpPr><a:spLocks noGrp=\"1\"/></p:cNvSpPr>
<p:nvPr><p:ph type=\"body\" idx=\"1\"/></p:nvPr>
</p:nvSpPr>
<p:spPr>
<a:xfrm><a:off x=\"{.num p.x}\" y=\"{.num p.y}\"/><a:ext cx=\"{.num p.cx}\" cy=\"{.num p.cy}\"/></a:xfrm>
<a:prstGeom prst=\"rect\"><a:avLst/></a:prstGeom>
<a:noFill/>
</p:spPr>
<p:txBody>
<a:bodyPr/>
<a:lstStyle/>"

/-- `start_content_body`, src/generator/layouts/common.rs 236-256. -/
def startBody (id : Nat) (p : Place) : List Part := bodyOpen id p ++ t!"\n"

/-- The text of `add_bullet_with_style`, src/generator/layouts/common.rs 264-283. -/
def bulletPara (props : TextProps) (b : BulletPoint) : List Part :=
  t!"<a:p>
<a:pPr lvl=\"{.num b.level}\" marL=\"{.num (b.level * 457200 + b.indent)}\" indent=\"-{.num b.indent}\">
"
  ++ b.style.toXml
  ++ t!"
</a:pPr>
<a:r>
"
  ++ props.toXml
  ++ t!"
<a:t>{.esc b.text}</a:t>
</a:r>
</a:p>"

/-- `add_bullet_with_style`, src/generator/layouts/common.rs 264-283. -/
def addBullet (props : TextProps) (b : BulletPoint) : List Part := bulletPara props b ++ t!"\n"

/-- The text of `end_content_body`, src/generator/layouts/common.rs 287. -/
def bodyClose : List Part :=
  t!"</p:txBody>
</p:sp>"

/-- `end_content_body`, src/generator/layouts/common.rs 286-289; also src/generator/layouts/two_column.rs 74
and 107. -/
def endBody : List Part := bodyClose ++ t!"\n"

/-- The text of the start of the left column, src/generator/layouts/two_column.rs 45-63. -/
def leftOpen : List Part :=
  t!"<p:sp>
<p:nvSpPr>
<p:cNvPr id=\"3\" name=\"Left Content\"/>
<p:cNvSpPr><a:spLocks noGrp=\"1\"/></p:cNvSpPr>
<p:nvPr><p:ph type=\"body\" idx=\"1\"/></p:nvPr>
</p:nvSpPr>
<p:spPr>
<a:xfrm>
<a:off x=\"457200\" y=\"1189200\"/>
<a:ext cx=\"4115100\" cy=\"5668800\"/>
</a:xfrm>
<a:prstGeom prst=\"rect\"><a:avLst/></a:prstGeom>
<a:noFill/>
</p:spPr>
<p:txBody>
<a:bodyPr/>
<a:lstStyle/>"

/-- The start of the left column, src/generator/layouts/two_column.rs 45-63. -/
def startLeft : List Part := t!"\n" ++ leftOpen ++ t!"\n"

/-- The text of the start of the right column, src/generator/layouts/two_column.rs 78-96. -/
def rightOpen : List Part :=
  t!"<p:sp>
<p:nvSpPr>
<p:cNvPr id=\"4\" name=\"Right Content\"/>
<p:cNvSpPr><a:spLocks noGrp=\"1\"/></p:cNvSpPr>
<p:nvPr><p:ph type=\"body\" idx=\"2\"/></p:nvPr>
</p:nvSpPr>
<p:spPr>
<a:xfrm>
<a:off x=\"4572300\" y=\"1189200\"/>
<a:ext cx=\"4115100\" cy=\"5668800\"/>
</a:xfrm>
<a:prstGeom prst=\"rect\"><a:avLst/></a:prstGeom>
<a:noFill/>
</p:spPr>
<p:txBody>
<a:bodyPr/>
<a:lstStyle/>"

/-- The start of the right column, src/generator/layouts/two_column.rs 78-96. -/
def startRight : List Part := t!"\n" ++ rightOpen ++ t!"\n"

/-- The text of a placeholder, src/generator/layouts/title_content.rs 70-106. -/
def imageBox (id : Nat) (i : Picture) : List Part :=
  t!"<p:sp>
<p:nvSpPr>
<p:cNvPr id=\"{.num id}\" name=\"Image Placeholder: {.esc i.filename}\"/>
<p:cNvSpPr/>
<p:nvPr/>
</p:nvSpPr>
<p:spPr>
<a:xfrm>
<a:off x=\"{.num i.x}\" y=\"{.num i.y}\"/>
<a:ext cx=\"{.num i.width}\" cy=\"{.num i.height}\"/>
</a:xfrm>
<a:prstGeom prst=\"rect\"><a:avLst/></a:prstGeom>
<a:solidFill><a:srgbClr val=\"E0E0E0\"/></a:solidFill>
<a:ln w=\"12700\"><a:solidFill><a:srgbClr val=\"808080\"/></a:solidFill></a:ln>
</p:spPr>
<p:txBody>
<a:bodyPr wrap=\"square\" rtlCol=\"0\" anchor=\"ctr\"/>
<a:lstStyle/>
<a:p>
<a:pPr algn=\"ctr\"/>
<a:r>
<a:rPr lang=\"en-US\" sz=\"1400\"/>
<a:t>📷 {.esc i.filename}</a:t>
</a:r>
</a:p>
</p:txBody>
</p:sp>"

/-- A placeholder for a picture, src/generator/layouts/title_content.rs 70-106. -/
def placeholder (id : Nat) (i : Picture) : List Part := t!"\n" ++ imageBox id i

/-- The properties of the title: the size is written as it is; src/generator/layouts/title_content.rs 19
and 22-28. `generate_text_props` is src/generator/layouts/common.rs 97-105. -/
def Page.titleProps (p : Page) : TextProps :=
  .withBasic (p.text.titleSize.getD 4400) p.text.titleBold p.text.titleItalic p.text.titleUnderline p.text.titleColor

/-- The properties of the content, src/generator/layouts/title_content.rs 20 and 30-36. -/
def Page.contentProps (p : Page) : TextProps :=
  .withBasic (p.text.contentSize.getD 2800) p.text.contentBold p.text.contentItalic p.text.contentUnderline p.text.contentColor

/-- The title of two columns, src/generator/layouts/two_column.rs 13 and 16-22. -/
def Page.columnTitleProps (p : Page) : TextProps :=
  .withBasic (p.text.titleSize.getD 44 * 100) p.text.titleBold p.text.titleItalic p.text.titleUnderline p.text.titleColor

/-- The content of two columns, src/generator/layouts/two_column.rs 14 and 24-30. -/
def Page.columnProps (p : Page) : TextProps :=
  .withBasic (p.text.contentSize.getD 24 * 100) p.text.contentBold p.text.contentItalic p.text.contentUnderline p.text.contentColor

/-- The content body, src/generator/layouts/title_content.rs 46-60 and 146-158. -/
def bodyXml (place : Place) (props : TextProps) (l : List BulletPoint) : List Part :=
  if l ≠ [] then startBody 3 place ++ l.flatMap (addBullet props) ++ endBody else []

/-- The columns, src/generator/layouts/two_column.rs 38-109; `mid` is `div_ceil(2)`. -/
def columnsXml (props : TextProps) (l : List BulletPoint) : List Part :=
  let mid := (l.length + 1) / 2
  if 0 < l.length then
    startLeft ++ (l.take mid).flatMap (addBullet props) ++ endBody
    ++ (if mid < l.length then startRight ++ (l.drop mid).flatMap (addBullet props) ++ endBody else [])
  else []

/-- The shapes, src/generator/layouts/title_content.rs 63-65: the numbers of the shapes themselves are not
used. -/
def shapesXml (fontSize : Str → Nat → Nat → Nat) : Nat → List Shape → Option (List Part)
  | _, [] => some []
  | i, s :: ss =>
    (shapeXml fontSize s (i + 10)).bind fun x => (shapesXml fontSize (i + 1) ss).map fun r => t!"\n" ++ x ++ r

/-- The placeholders, src/generator/layouts/title_content.rs 68-107. -/
def placeholders : Nat → List Picture → List Part
  | _, [] => []
  | id, i :: l => placeholder id i ++ placeholders (id + 1) l

/-- The shapes of a slide: the `generate` functions of src/generator/layouts, and
`create_slide_xml_for_layout`, src/generator/layouts/mod.rs 22-32. -/
def Page.drawing (fontSize : Str → Nat → Nat → Nat) (p : Page) : Option (List Part) :=
  match p.text.layout with
  | .blank => some []
  | .titleOnly => some (addTitle 2 ⟨457200, 274638, 8230200, 1143000⟩ p.text.title p.titleProps c!"title")
  | .centeredTitle | .sectionHeader =>
    some (addCentered 2 ⟨457200, 2743200, 8230200, 1371600⟩ p.text.title p.titleProps)
  | .titleAndBigContent =>
    some (addTitle 2 ⟨457200, 274638, 8230200, 914400⟩ p.text.title p.titleProps c!"title"
      ++ bodyXml ⟨457200, 1189200, 8230200, 5668800⟩ p.contentProps p.text.effective)
  | .twoColumn =>
    some (addTitle 2 ⟨457200, 274638, 8230200, 914400⟩ p.text.title p.columnTitleProps c!"title"
      ++ columnsXml p.columnProps p.text.effective)
  | .titleAndContent =>
    (shapesXml fontSize 0 p.shapes).map fun s =>
      addTitle 2 ⟨457200, 274638, 8230200, 1143000⟩ p.text.title p.titleProps c!"title"
      ++ (match p.text.table with
        | some t => tableXml t
        | none => bodyXml ⟨457200, 1600200, 8230200, 4572000⟩ p.contentProps p.text.effective)
      ++ s ++ placeholders (20 + p.shapes.length) p.images

/-- `create_slide_xml_for_layout`, src/generator/layouts/mod.rs 22-32. -/
def Page.xml (fontSize : Str → Nat → Nat → Nat) (p : Page) : Option Str :=
  (p.drawing fontSize).map fun d => xmlDecl ++ fmt (head ++ d ++ tail)

end PptRs.Layouts
