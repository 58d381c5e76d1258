import Verif.Model.ShapeType
import Verif.Model.Color
import Verif.Model.Float
import Verif.Model.Builder
import Verif.Model.SlideText
import Verif.Model.Repair

/-!
# Shapes, pictures, code blocks, connectors and charts on a slide

`src/generator/shapes_xml.rs`, `connectors.rs`, `images_xml.rs`, `image_effects.rs` and
`slide_xml/content.rs`. A panic is the result `none`. An overflow of integer arithmetic is a panic in
builds with overflow checks; builds without them write the number modulo 2^32.

The font size of the text in a shape is computed with floating point numbers
(src/generator/shapes_xml.rs 190-311); it is a parameter here, `Autofit.fontSize` is the function. The parts of a crop are the integers that
src/generator/image_effects.rs 45-48 obtains from the floating point numbers.
-/

namespace PptRs.Draw

/-- Decimal formatting of a signed integer. -/
def decInt : Int → Str
  | .ofNat n => dec n
  | .negSucc n => '-' :: dec (n + 1)

/-! ### Fills and lines -/

/-- src/generator/shapes.rs 429-440. -/
inductive GradientDirection where
  | horizontal | vertical | diagonalDown | diagonalUp
  | angle (degrees : Nat)
deriving DecidableEq, Repr

/-- `GradientDirection::to_angle`, src/generator/shapes.rs 444-452. The product is a `u32`. -/
def GradientDirection.toAngle : GradientDirection → Option Nat
  | .horizontal => some 0
  | .vertical => some 5400000
  | .diagonalDown => some 2700000
  | .diagonalUp => some 18900000
  | .angle d => if d * 60000 < 4294967296 then some (d * 60000) else none

/-- src/generator/shapes.rs 457-461. `alpha` is the field `transparency`. -/
structure GradientStop where
  color : Str
  position : Nat
  alpha : Option Nat := none
deriving DecidableEq, Repr

/-- The value stored for a transparency in percent, src/generator/shapes.rs 475 and 546. -/
def alphaOf (percent : Nat) : Nat := (100 - min percent 100) * 1000

/-- `GradientStop::new`, src/generator/shapes.rs 465-471. -/
def GradientStop.new (color : Str) (percent : Nat) : GradientStop :=
  { color := cleanColor color, position := min percent 100 * 1000 }

/-- `GradientStop::with_transparency`, src/generator/shapes.rs 474-478. -/
def GradientStop.withTransparency (s : GradientStop) (percent : Nat) : GradientStop :=
  { s with alpha := some (alphaOf percent) }

/-- src/generator/shapes.rs 483-486. -/
structure GradientFill where
  stops : List GradientStop
  direction : GradientDirection
deriving DecidableEq, Repr

/-- `GradientFill::linear`, src/generator/shapes.rs 490-498. -/
def GradientFill.linear (a b : Str) (d : GradientDirection) : GradientFill :=
  ⟨[.new a 0, .new b 100], d⟩

/-- `GradientFill::three_color`, src/generator/shapes.rs 501-510. -/
def GradientFill.threeColor (a b c : Str) (d : GradientDirection) : GradientFill :=
  ⟨[.new a 0, .new b 50, .new c 100], d⟩

/-- Inserting a stop after the stops that are not behind it: where the stable sort puts the last
element of a list whose other elements are sorted. -/
def insertStop (s : GradientStop) : List GradientStop → List GradientStop
  | [] => [s]
  | x :: xs => if s.position < x.position then s :: x :: xs else x :: insertStop s xs

/-- `Vec::sort_by_key(|s| s.position)`: a stable sort. -/
def sortStops (l : List GradientStop) : List GradientStop := l.foldl (fun acc s => insertStop s acc) []

/-- `GradientFill::with_stop`, src/generator/shapes.rs 513-517. -/
def GradientFill.withStop (g : GradientFill) (s : GradientStop) : GradientFill :=
  { g with stops := sortStops (g.stops ++ [s]) }

/-- src/generator/shapes.rs 530-533. `alpha` is the field `transparency`. -/
structure ShapeFill where
  color : Str
  alpha : Option Nat := none
deriving DecidableEq, Repr

/-- `ShapeFill::new`, src/generator/shapes.rs 537-542. -/
def ShapeFill.new (color : Str) : ShapeFill := { color := cleanColor color }

/-- `ShapeFill::with_transparency`, src/generator/shapes.rs 545-549. -/
def ShapeFill.withTransparency (f : ShapeFill) (percent : Nat) : ShapeFill :=
  { f with alpha := some (alphaOf percent) }

/-- src/generator/shapes.rs 559-562. -/
structure ShapeLine where
  color : Str
  width : Nat
deriving DecidableEq, Repr

/-- `ShapeLine::new`, src/generator/shapes.rs 566-571. -/
def ShapeLine.new (color : Str) (width : Nat) : ShapeLine := ⟨cleanColor color, width⟩

/-- The optional `alpha` element, src/generator/shapes_xml.rs 73-75 and 93-95. -/
def alphaXml (a : Option Nat) : List Part := whenSome a fun t => t!"<a:alpha val=\"{.num t}\"/>"

/-- `generate_fill_xml`, src/generator/shapes_xml.rs 70-86. -/
def fillXml (f : Option ShapeFill) : List Part :=
  whenSome f fun f => t!"<a:solidFill>\n<a:srgbClr val=\"{.raw f.color}\">" ++ alphaXml f.alpha
    ++ t!"</a:srgbClr>\n</a:solidFill>"

/-- One stop, src/generator/shapes_xml.rs 92-103. -/
def stopXml (s : GradientStop) : List Part :=
  t!"<a:gs pos=\"{.num s.position}\">\n<a:srgbClr val=\"{.raw s.color}\">" ++ alphaXml s.alpha
    ++ t!"</a:srgbClr>\n</a:gs>"

/-- The text of a gradient with the angle `ang`, src/generator/shapes_xml.rs 92-114. -/
def gradientText (stops : List GradientStop) (ang : Nat) : List Part :=
  t!"<a:gradFill>\n<a:gsLst>\n" ++ stops.flatMap stopXml
    ++ t!"\n</a:gsLst>\n<a:lin ang=\"{.num ang}\" scaled=\"1\"/>\n</a:gradFill>"

/-- `generate_gradient_xml`, src/generator/shapes_xml.rs 89-115. -/
def gradientXml (g : GradientFill) : Option (List Part) :=
  g.direction.toAngle.map (gradientText g.stops)

/-- `generate_line_xml`, src/generator/shapes_xml.rs 118-132. -/
def lineXml (l : Option ShapeLine) : List Part :=
  whenSome l fun l =>
    t!"<a:ln w=\"{.num l.width}\">\n<a:solidFill>\n<a:srgbClr val=\"{.raw l.color}\"/>\n</a:solidFill>\n</a:ln>"

/-! ### Hyperlinks -/

/-- `Hyperlink`, src/generator/hyperlinks.rs 106-115. -/
structure Link where
  action : HyperlinkAction
  tooltip : Option Str := none
  highlight : Bool := true
  rId : Option Str := none
deriving DecidableEq, Repr

/-- `HyperlinkAction::action_type`, src/generator/hyperlinks.rs 92-101. -/
def actionType : HyperlinkAction → Option Str
  | .firstSlide => some c!"ppaction://hlinkshowjump?jump=firstslide"
  | .lastSlide => some c!"ppaction://hlinkshowjump?jump=lastslide"
  | .nextSlide => some c!"ppaction://hlinkshowjump?jump=nextslide"
  | .previousSlide => some c!"ppaction://hlinkshowjump?jump=previousslide"
  | .endShow => some c!"ppaction://hlinkshowjump?jump=endshow"
  | _ => none

/-- `generate_shape_hyperlink_xml` and `generate_text_hyperlink_xml`, src/generator/hyperlinks.rs
163-201. -/
def linkXml (h : Link) (rid : Str) : List Part :=
  t!"<a:hlinkClick r:id=\"{.raw rid}\"" ++ whenSome h.tooltip (fun t => t!" tooltip=\"{.esc t}\"")
    ++ whenSet h.highlight t!" highlightClick=\"1\""
    ++ whenSome (actionType h.action) (fun a => t!" action=\"{.raw a}\"") ++ t!"/>"

/-- `generate_hyperlink_relationship_xml`, src/generator/hyperlinks.rs 204-218. -/
def linkRelXml (h : Link) (rid : Str) : List Part :=
  t!"<Relationship Id=\"{.raw rid}\" Type=\"http://schemas.openxmlformats.org/officeDocument/2006/relationships/hyperlink\" Target=\"{.esc h.action.relationshipTarget}\""
    ++ whenSet h.action.isExternal t!" TargetMode=\"External\"" ++ t!"/>"

/-! ### Text in shapes -/

open PptRs.Fl in
/-- The comparison in `is_dark_color`, src/generator/shapes_xml.rs 325-326, in `f64`. -/
def darkFloat (r g b : UInt8) : Bool :=
  lt (add b64 (add b64 (mul b64 (mk b64 (299 / 1000)) (mk b64 r.toNat)) (mul b64 (mk b64 (587 / 1000)) (mk b64 g.toNat)))
    (mul b64 (mk b64 (114 / 1000)) (mk b64 b.toNat))) (mk b64 128)

/-- `is_dark_color`, src/generator/shapes_xml.rs 314-327; `none` is a panic. -/
def isDark (color : Str) : Option Bool :=
  let hex := trimStartChar '#' color
  if utf8Len hex < 6 then some false
  else
    (byteSlice hex 0 2).bind fun x => (byteSlice hex 2 4).bind fun y => (byteSlice hex 4 6).map fun z =>
      darkFloat ((parseHexU8 x).getD 255) ((parseHexU8 y).getD 255) ((parseHexU8 z).getD 255)

/-- `get_text_color`, src/generator/shapes_xml.rs 330-335. -/
def textColor : Option Str → Option Str
  | none => some c!"000000"
  | some c => (isDark c).map fun d => if d then c!"FFFFFF" else c!"000000"

/-- Whether a text is taken for code, src/generator/shapes_xml.rs 342. -/
def isCode (t : Str) : Bool := startsWith c!"[" t && containsStr c!"]\n" t

/-- One line of code, src/generator/shapes_xml.rs 347-358. -/
def codeLineXml (l : Str) : List Part :=
  t!"<a:p>\n<a:pPr algn=\"l\"/>\n<a:r>\n<a:rPr lang=\"en-US\" sz=\"1200\" dirty=\"0\"><a:latin typeface=\"Consolas\"/><a:solidFill><a:srgbClr val=\"FFFFFF\"/></a:solidFill></a:rPr>\n<a:t>{.esc l}</a:t>\n</a:r>\n</a:p>"

/-- The text body for code, src/generator/shapes_xml.rs 344-366. -/
def codeTextXml (t : Str) : List Part :=
  t!"<p:txBody>\n<a:bodyPr wrap=\"square\" rtlCol=\"0\" anchor=\"t\" lIns=\"91440\" tIns=\"45720\" rIns=\"91440\" bIns=\"45720\"/>\n<a:lstStyle/>\n"
    ++ (strLines t).flatMap codeLineXml ++ t!"</p:txBody>"

/-- The text body for other text: `anchor` and `align` of lines 375-377, the font size and the colour.
src/generator/shapes_xml.rs 388-410. -/
def plainTextXml (t : Str) (size : Nat) (color anchor align : Str) : List Part :=
  t!"<p:txBody>\n<a:bodyPr wrap=\"square\" rtlCol=\"0\" anchor=\"{.raw anchor}\" lIns=\"91440\" tIns=\"45720\" rIns=\"91440\" bIns=\"45720\">\n<a:normAutofit/>\n</a:bodyPr>\n<a:lstStyle/>\n<a:p>\n<a:pPr algn=\"{.raw align}\" marL=\"0\" marR=\"0\" indent=\"0\"/>\n<a:r>\n<a:rPr lang=\"en-US\" sz=\"{.num size}\" dirty=\"0\"><a:solidFill><a:srgbClr val=\"{.raw color}\"/></a:solidFill></a:rPr>\n<a:t>{.esc t}</a:t>\n</a:r>\n</a:p>\n</p:txBody>"

/-- The text body of a shape without text, src/generator/shapes_xml.rs 415-421. -/
def noTextXml : List Part :=
  t!"<p:txBody>\n<a:bodyPr/>\n<a:lstStyle/>\n<a:p>\n<a:endParaRPr/>\n</a:p>\n</p:txBody>"

/-- `generate_text_xml_with_autofit`, src/generator/shapes_xml.rs 338-424. -/
def textXml (fontSize : Str → Nat → Nat → Nat) (text : Option Str) (w h : Nat) (fill : Option Str) :
    Option (List Part) :=
  match text with
  | none => some noTextXml
  | some t =>
    if isCode t then some (codeTextXml t)
    else
      (textColor fill).map fun c =>
        plainTextXml t (fontSize t w h) c (if t.contains '\n' then c!"t" else c!"ctr")
          (if t.contains '\n' then c!"l" else c!"ctr")

/-! ### Shapes -/

/-- `Shape`, src/generator/shapes.rs 578-594. -/
structure Shape where
  kind : ShapeType
  x : Nat
  y : Nat
  width : Nat
  height : Nat
  fill : Option ShapeFill := none
  gradient : Option GradientFill := none
  line : Option ShapeLine := none
  text : Option Str := none
  id : Option Nat := none
  rotation : Option Int := none
  link : Option Link := none

/-- `Shape::with_fill`, src/generator/shapes.rs 634-638. -/
def Shape.withFill (s : Shape) (f : ShapeFill) : Shape := { s with fill := some f, gradient := none }

/-- `Shape::with_gradient`, src/generator/shapes.rs 641-645. -/
def Shape.withGradient (s : Shape) (g : GradientFill) : Shape := { s with gradient := some g, fill := none }

/-- The `rot` attribute: the product is an `i32`. src/generator/shapes_xml.rs 21-25. -/
def rotAttr : Option Int → Option (List Part)
  | none => some []
  | some r =>
    if -2147483648 ≤ r * 60000 ∧ r * 60000 < 2147483648 then some t!" rot=\"{.raw (decInt (r * 60000))}\""
    else none

/-- The `cNvPr` element: a hyperlink is only written if its relationship id is set.
src/generator/shapes_xml.rs 27-35. -/
def cnvprXml (link : Option Link) (id : Nat) : List Part :=
  match link.bind (fun h => h.rId.map fun rid => (h, rid)) with
  | some (h, rid) => t!"<p:cNvPr id=\"{.num id}\" name=\"Shape {.num id}\">" ++ linkXml h rid ++ t!"</p:cNvPr>"
  | none => t!"<p:cNvPr id=\"{.num id}\" name=\"Shape {.num id}\"/>"

/-- The text of a shape. src/generator/shapes_xml.rs 37-66. -/
def shapeText (cnv rot : List Part) (s : Shape) (fill line text : List Part) : List Part :=
  t!"<p:sp>\n<p:nvSpPr>\n" ++ cnv ++ t!"\n<p:cNvSpPr/>\n<p:nvPr/>\n</p:nvSpPr>\n<p:spPr>\n<a:xfrm" ++ rot
    ++ t!">\n<a:off x=\"{.num s.x}\" y=\"{.num s.y}\"/>\n<a:ext cx=\"{.num s.width}\" cy=\"{.num s.height}\"/>\n</a:xfrm>\n<a:prstGeom prst=\"{.raw s.kind.presetName}\">\n<a:avLst/>\n</a:prstGeom>\n"
    ++ fill ++ line ++ t!"\n</p:spPr>\n" ++ text ++ t!"\n</p:sp>"

/-- The fill of a shape, a gradient being preferred. src/generator/shapes_xml.rs 12-16. -/
def shapeFillXml (s : Shape) : Option (List Part) :=
  match s.gradient with
  | some g => gradientXml g
  | none => some (fillXml s.fill)

/-- `generate_shape_xml`, src/generator/shapes_xml.rs 10-67. -/
def shapeXml (fontSize : Str → Nat → Nat → Nat) (s : Shape) (id : Nat) : Option (List Part) :=
  (shapeFillXml s).bind fun fill =>
  (textXml fontSize s.text s.width s.height (s.fill.map (·.color))).bind fun text =>
  (rotAttr s.rotation).map fun rot =>
    shapeText (cnvprXml s.link id) rot s fill (lineXml s.line) text

/-! ### Pictures -/

/-- src/generator/images.rs 57-70. -/
inductive ImageEffect where
  | shadow | reflection | glow | softEdges | innerShadow | blur
deriving DecidableEq, Repr

/-- `generate_effect_xml`, src/generator/image_effects.rs 22-39. -/
def ImageEffect.toXml : ImageEffect → List Part
  | .shadow => t!"<a:outerShdw blurRad=\"40000\" dist=\"20000\" dir=\"5400000\" rotWithShape=\"0\"><a:srgbClr val=\"000000\"><a:alpha val=\"40000\"/></a:srgbClr></a:outerShdw>"
  | .reflection => t!"<a:reflection blurRad=\"6350\" stA=\"50000\" endA=\"300\" endPos=\"35000\" dir=\"5400000\" sy=\"-100000\" algn=\"bl\" rotWithShape=\"0\"/>"
  | .glow => t!"<a:glow rad=\"50800\"><a:srgbClr val=\"FFD700\"><a:alpha val=\"60000\"/></a:srgbClr></a:glow>"
  | .softEdges => t!"<a:softEdge rad=\"50800\"/>"
  | .innerShadow => t!"<a:innerShdw blurRad=\"40000\" dist=\"20000\" dir=\"2700000\"><a:srgbClr val=\"000000\"><a:alpha val=\"50000\"/></a:srgbClr></a:innerShdw>"
  | .blur => t!"<a:blur rad=\"38100\"/>"

/-- `generate_effect_list_xml`, src/generator/image_effects.rs 8-19. -/
def effectsXml (l : List ImageEffect) : List Part :=
  if l = [] then [] else t!"<a:effectLst>" ++ l.flatMap ImageEffect.toXml ++ t!"</a:effectLst>"

/-- The four parts of a crop. -/
structure Crop where
  left : Nat
  top : Nat
  right : Nat
  bottom : Nat
deriving DecidableEq, Repr

/-- The attributes of `srcRect`, src/generator/image_effects.rs 49-54. -/
def Crop.attrs (c : Crop) : List Part :=
  whenSet (decide (0 < c.left)) t!" l=\"{.num c.left}\"" ++ whenSet (decide (0 < c.top)) t!" t=\"{.num c.top}\""
    ++ whenSet (decide (0 < c.right)) t!" r=\"{.num c.right}\"" ++ whenSet (decide (0 < c.bottom)) t!" b=\"{.num c.bottom}\""

/-- The `srcRect` element with the line feed before it. -/
def cropXml (c : Option Crop) : List Part :=
  whenSome c fun c => t!"\n<a:srcRect" ++ c.attrs ++ t!"/>"

/-- `generate_blip_fill_xml`, src/generator/image_effects.rs 42-74. -/
def blipFillXml (rel : Nat) (c : Option Crop) : List Part :=
  t!"<p:blipFill>\n<a:blip r:embed=\"rId{.num rel}\"/>" ++ cropXml c
    ++ t!"\n<a:stretch>\n<a:fillRect/>\n</a:stretch>\n</p:blipFill>"

/-- `Image`, src/generator/images.rs 74-89, as far as the slide shows it. -/
structure Picture where
  filename : Str
  x : Nat
  y : Nat
  width : Nat
  height : Nat
  crop : Option Crop := none
  effects : List ImageEffect := []
  altText : Option Str := none

/-- `generate_image_xml`, src/generator/images_xml.rs 10-51. -/
def pictureXml (p : Picture) (id rel : Nat) : List Part :=
  t!"<p:pic>\n<p:nvPicPr>\n<p:cNvPr id=\"{.num id}\" name=\"{.esc p.filename}\""
    ++ whenSome p.altText (fun a => t!" descr=\"{.esc a}\"")
    ++ t!"/>\n<p:cNvPicPr>\n<a:picLocks noChangeAspect=\"1\"/>\n</p:cNvPicPr>\n<p:nvPr/>\n</p:nvPicPr>\n"
    ++ blipFillXml rel p.crop
    ++ t!"\n<p:spPr>\n<a:xfrm>\n<a:off x=\"{.num p.x}\" y=\"{.num p.y}\"/>\n<a:ext cx=\"{.num p.width}\" cy=\"{.num p.height}\"/>\n</a:xfrm>\n<a:prstGeom prst=\"rect\">\n<a:avLst/>\n</a:prstGeom>\n"
    ++ effectsXml p.effects ++ t!"\n</p:spPr>\n</p:pic>"

/-! ### Connectors -/

/-- src/generator/connectors.rs 9-16. -/
inductive ConnectorType where
  | straight | elbow | curved
deriving DecidableEq, Repr

/-- src/generator/connectors.rs 20-26. -/
def ConnectorType.presetName : ConnectorType → Str
  | .straight => c!"straightConnector1"
  | .elbow => c!"bentConnector3"
  | .curved => c!"curvedConnector3"

/-- src/generator/connectors.rs 40-53. -/
inductive ArrowType where
  | none | triangle | stealth | diamond | oval | opened
deriving DecidableEq, Repr

/-- src/generator/connectors.rs 57-66. -/
def ArrowType.xml : ArrowType → Str
  | .none => c!"none"
  | .triangle => c!"triangle"
  | .stealth => c!"stealth"
  | .diamond => c!"diamond"
  | .oval => c!"oval"
  | .opened => c!"arrow"

/-- src/generator/connectors.rs 71-75. -/
inductive ArrowSize where
  | small | medium | large
deriving DecidableEq, Repr

/-- src/generator/connectors.rs 79-85. -/
def ArrowSize.xml : ArrowSize → Str
  | .small => c!"sm"
  | .medium => c!"med"
  | .large => c!"lg"

/-- src/generator/connectors.rs 90-109. -/
inductive ConnectionSite where
  | top | bottom | left | right | topLeft | topRight | bottomLeft | bottomRight | center
deriving DecidableEq, Repr

/-- src/generator/connectors.rs 113-125. -/
def ConnectionSite.index : ConnectionSite → Nat
  | .top => 0
  | .right => 1
  | .bottom => 2
  | .left => 3
  | .topLeft => 4
  | .topRight => 5
  | .bottomRight => 6
  | .bottomLeft => 7
  | .center => 8

/-- src/generator/connectors.rs 168-176. -/
inductive LineDash where
  | solid | dash | dot | dashDot | dashDotDot | longDash | longDashDot
deriving DecidableEq, Repr

/-- src/generator/connectors.rs 180-190. -/
def LineDash.xml : LineDash → Str
  | .solid => c!"solid"
  | .dash => c!"dash"
  | .dot => c!"dot"
  | .dashDot => c!"dashDot"
  | .dashDotDot => c!"lgDashDotDot"
  | .longDash => c!"lgDash"
  | .longDashDot => c!"lgDashDot"

/-- src/generator/connectors.rs 130-137; the default of 139-147. -/
structure ConnectorLine where
  color : Str := c!"000000"
  width : Nat := 12700
  dash : LineDash := .solid
deriving DecidableEq, Repr

/-- `Connector`, src/generator/connectors.rs 195-224; the defaults of 228-251. -/
structure Connector where
  kind : ConnectorType
  startX : Nat
  startY : Nat
  endX : Nat
  endY : Nat
  line : ConnectorLine := {}
  startArrow : ArrowType := .none
  endArrow : ArrowType := .none
  arrowSize : ArrowSize := .medium
  startShape : Option Nat := none
  startSite : Option ConnectionSite := none
  endShape : Option Nat := none
  endSite : Option ConnectionSite := none
  label : Option Str := none

/-- Both values, if both are set. -/
def both {α β : Type} (a : Option α) (b : Option β) : Option (α × β) := a.bind fun x => b.map fun y => (x, y)

/-- The `stCxn` element, src/generator/connectors.rs 371-377. -/
def startLinkXml (c : Connector) : List Part :=
  whenSome (both c.startShape c.startSite) fun p => t!"\n<a:stCxn id=\"{.num p.1}\" idx=\"{.num p.2.index}\"/>"

/-- The `endCxn` element, src/generator/connectors.rs 379-385. -/
def endLinkXml (c : Connector) : List Part :=
  whenSome (both c.endShape c.endSite) fun p => t!"\n<a:endCxn id=\"{.num p.1}\" idx=\"{.num p.2.index}\"/>"

/-- The flips, src/generator/connectors.rs 342-349 and 359-360. -/
def flipAttrs (c : Connector) : List Part :=
  whenSet (decide (c.endX < c.startX)) t!" flipH=\"1\"" ++ whenSet (decide (c.endY < c.startY)) t!" flipV=\"1\""

/-- `abs_diff`. -/
def absDiff (a b : Nat) : Nat := if a < b then b - a else a - b

/-- The arrow at the start, src/generator/connectors.rs 414-422. -/
def headXml (c : Connector) : List Part :=
  whenSet (decide (c.startArrow ≠ .none))
    t!"\n<a:headEnd type=\"{.raw c.startArrow.xml}\" w=\"{.raw c.arrowSize.xml}\" len=\"{.raw c.arrowSize.xml}\"/>"

/-- The arrow at the end, src/generator/connectors.rs 424-432. -/
def tailXml (c : Connector) : List Part :=
  whenSet (decide (c.endArrow ≠ .none))
    t!"\n<a:tailEnd type=\"{.raw c.endArrow.xml}\" w=\"{.raw c.arrowSize.xml}\" len=\"{.raw c.arrowSize.xml}\"/>"

/-- The label, src/generator/connectors.rs 439-454. -/
def labelXml (c : Connector) : List Part :=
  whenSome c.label fun l =>
    t!"\n<p:txBody>\n<a:bodyPr/>\n<a:lstStyle/>\n<a:p>\n<a:r>\n<a:rPr lang=\"en-US\" sz=\"1000\"/>\n<a:t>{.esc l}</a:t>\n</a:r>\n</a:p>\n</p:txBody>"

/-- `connectors::generate_connector_xml`, src/generator/connectors.rs 353-460. -/
def connectorXml (c : Connector) (id : Nat) : List Part :=
  t!"<p:cxnSp>\n<p:nvCxnSpPr>\n<p:cNvPr id=\"{.num id}\" name=\"Connector {.num id}\"/>\n<p:cNvCxnSpPr>"
    ++ startLinkXml c ++ endLinkXml c
    ++ t!"\n</p:cNvCxnSpPr>\n<p:nvPr/>\n</p:nvCxnSpPr>\n<p:spPr>\n<a:xfrm" ++ flipAttrs c
    ++ t!">\n<a:off x=\"{.num (min c.startX c.endX)}\" y=\"{.num (min c.startY c.endY)}\"/>\n<a:ext cx=\"{.num (absDiff c.endX c.startX)}\" cy=\"{.num (absDiff c.endY c.startY)}\"/>\n</a:xfrm>\n<a:prstGeom prst=\"{.raw c.kind.presetName}\">\n<a:avLst/>\n</a:prstGeom>\n<a:ln w=\"{.num c.line.width}\">\n<a:solidFill>\n<a:srgbClr val=\"{.raw c.line.color}\"/>\n</a:solidFill>\n<a:prstDash val=\"{.raw c.line.dash.xml}\"/>"
    ++ headXml c ++ tailXml c ++ t!"\n</a:ln>\n</p:spPr>" ++ labelXml c ++ t!"\n</p:cxnSp>"

/-- `shapes_xml::generate_connector_xml`, src/generator/shapes_xml.rs 436-475. -/
def plainConnectorXml (sx sy ex ey id : Nat) (color : Str) (width : Nat) : List Part :=
  t!"<p:cxnSp>\n<p:nvCxnSpPr>\n<p:cNvPr id=\"{.num id}\" name=\"Connector {.num id}\"/>\n<p:cNvCxnSpPr/>\n<p:nvPr/>\n</p:nvCxnSpPr>\n<p:spPr>\n<a:xfrm>\n<a:off x=\"{.num (min sx ex)}\" y=\"{.num (min sy ey)}\"/>\n<a:ext cx=\"{.num (absDiff ex sx)}\" cy=\"{.num (absDiff ey sy)}\"/>\n</a:xfrm>\n<a:prstGeom prst=\"straightConnector1\">\n<a:avLst/>\n</a:prstGeom>\n<a:ln w=\"{.num width}\">\n<a:solidFill>\n<a:srgbClr val=\"{.raw (cleanColor color)}\"/>\n</a:solidFill>\n<a:tailEnd type=\"triangle\"/>\n</a:ln>\n</p:spPr>\n</p:cxnSp>"

/-! ### Code blocks -/

/-- `HighlightedSegment`, src/cli/syntax.rs 16-21. -/
structure Segment where
  text : Str
  color : Str
  bold : Bool := false
  italic : Bool := false
deriving DecidableEq, Repr

/-- src/generator/slide_content/code_block.rs 5-12. -/
structure CodeBlock where
  code : Str
  language : Str
  x : Int
  y : Int
  width : Int
  height : Int

/-- One segment of highlighted code, src/cli/syntax.rs 109-119. -/
def segmentXml (s : Segment) : List Part :=
  t!"<a:r><a:rPr lang=\"en-US\" sz=\"1400\" dirty=\"0\"" ++ whenSet s.bold t!" b=\"1\"" ++ whenSet s.italic t!" i=\"1\""
    ++ t!"><a:solidFill><a:srgbClr val=\"{.raw s.color}\"/></a:solidFill><a:latin typeface=\"Consolas\"/></a:rPr><a:t>{.esc s.text}</a:t></a:r>"

/-- The run written for a line without segments, src/cli/syntax.rs 107. -/
def blankLineXml : List Part :=
  t!"<a:r><a:rPr lang=\"en-US\" sz=\"1400\" dirty=\"0\"><a:solidFill><a:srgbClr val=\"839496\"/></a:solidFill><a:latin typeface=\"Consolas\"/></a:rPr><a:t> </a:t></a:r>"

/-- One line of highlighted code, src/cli/syntax.rs 102-123. -/
def highlightedLineXml (l : List Segment) : List Part :=
  t!"<a:p><a:pPr algn=\"l\"/>" ++ (if l = [] then blankLineXml else l.flatMap segmentXml) ++ t!"</a:p>"

/-- The three replacements of the fallback, src/generator/slide_xml/content.rs 103-106. -/
def escapeCode (s : Str) : Str :=
  replaceChar '>' c!"&gt;" (replaceChar '<' c!"&lt;" (replaceChar '&' c!"&amp;" s))

/-- The contents of a code block. With the feature `syntect`, `highlight` gives the segments of
each line of a text in a language (`highlight_code`, src/cli/syntax.rs 24-87, the library being a
parameter); without it the fallback of src/generator/slide_xml/content.rs 100-108 is used. -/
def codeContentXml (highlight : Option (Str → Str → List (List Segment))) (b : CodeBlock) : List Part :=
  match highlight with
  | some f => (f b.code b.language).flatMap highlightedLineXml
  | none => t!"<a:t>{.raw (escapeCode b.code)}</a:t>"

/-- `generate_code_block`, src/generator/slide_xml/content.rs 91-137. -/
def codeBlockXml (highlight : Option (Str → Str → List (List Segment))) (id : Nat) (b : CodeBlock) : List Part :=
  t!"<p:sp>\n<p:nvSpPr>\n<p:cNvPr id=\"{.num id}\" name=\"Code Block\"/>\n<p:cNvSpPr txBox=\"1\"/>\n<p:nvPr/>\n</p:nvSpPr>\n<p:spPr>\n<a:xfrm>\n<a:off x=\"{.raw (decInt b.x)}\" y=\"{.raw (decInt b.y)}\"/>\n<a:ext cx=\"{.raw (decInt b.width)}\" cy=\"{.raw (decInt b.height)}\"/>\n</a:xfrm>\n<a:prstGeom prst=\"rect\"><a:avLst/></a:prstGeom>\n<a:solidFill><a:srgbClr val=\"002B36\"/></a:solidFill>\n<a:ln w=\"12700\"><a:solidFill><a:srgbClr val=\"073642\"/></a:solidFill></a:ln>\n</p:spPr>\n<p:txBody>\n<a:bodyPr wrap=\"square\" rtlCol=\"0\" anchor=\"t\" lIns=\"91440\" tIns=\"45720\" rIns=\"91440\" bIns=\"45720\"/>\n<a:lstStyle/>\n"
    ++ codeContentXml highlight b ++ t!"</p:txBody>\n</p:sp>"

/-! ### Charts -/

/-- The place of a chart on the slide. -/
structure ChartBox where
  x : Nat
  y : Nat
  width : Nat
  height : Nat
deriving DecidableEq, Repr

/-- `generate_chart_ref_xml`, src/generator/charts/xml.rs 32-52. -/
def chartRefXml (c : ChartBox) (rid : Str) (id : Nat) : List Part :=
  t!"<p:graphicFrame>\n<p:nvGraphicFramePr>\n<p:cNvPr id=\"{.num id}\" name=\"Chart {.num id}\"/>\n<p:cNvGraphicFramePr/>\n<p:nvPr/>\n</p:nvGraphicFramePr>\n<p:xfrm>\n<a:off x=\"{.num c.x}\" y=\"{.num c.y}\"/>\n<a:ext cx=\"{.num c.width}\" cy=\"{.num c.height}\"/>\n</p:xfrm>\n<a:graphic>\n<a:graphicData uri=\"http://schemas.openxmlformats.org/drawingml/2006/chart\">\n<c:chart xmlns:c=\"http://schemas.openxmlformats.org/drawingml/2006/chart\" xmlns:r=\"http://schemas.openxmlformats.org/officeDocument/2006/relationships\" r:id=\"{.raw rid}\"/>\n</a:graphicData>\n</a:graphic>\n</p:graphicFrame>"

/-! ### The whole -/

/-- What `render_additional_content` draws. `notes` says whether the slide has notes. -/
structure Drawing where
  shapes : List Shape := []
  pictures : List Picture := []
  codeBlocks : List CodeBlock := []
  connectors : List Connector := []
  charts : List ChartBox := []
  notes : Bool := false

/-- Writing the elements of a list, each after a line feed and with its index from `i` on. -/
def writeFrom {α : Type} (f : Nat → α → List Part) : Nat → List α → List Part
  | _, [] => []
  | i, a :: as => t!"\n" ++ f i a ++ writeFrom f (i + 1) as

/-- The shapes, src/generator/slide_xml/content.rs 24-28; `i` is the index of the first one. -/
def shapesXml (fontSize : Str → Nat → Nat → Nat) : Nat → List Shape → Option (List Part)
  | _, [] => some []
  | i, s :: ss =>
    (shapeXml fontSize s (s.id.getD (i + 10))).bind fun x =>
      (shapesXml fontSize (i + 1) ss).map fun r => t!"\n" ++ x ++ r

/-- `render_additional_content`, src/generator/slide_xml/content.rs 7-77, without the ink. Only charts
with a relationship id are drawn. -/
def Drawing.xml (fontSize : Str → Nat → Nat → Nat) (highlight : Option (Str → Str → List (List Segment)))
    (d : Drawing) (chartRids : List Str) : Option (List Part) :=
  let ns := d.shapes.length
  let np := d.pictures.length
  let nb := d.codeBlocks.length
  let nc := d.connectors.length
  (shapesXml fontSize 0 d.shapes).map fun shapes =>
    shapes
    ++ writeFrom (fun i p => pictureXml p (20 + ns + i) (2 + (if d.notes then 1 else 0) + i)) 0 d.pictures
    ++ writeFrom (fun i b => codeBlockXml highlight (30 + ns + np + i) b) 0 d.codeBlocks
    ++ writeFrom (fun i c => connectorXml c (50 + ns + np + nb + i)) 0 d.connectors
    ++ writeFrom (fun i c => chartRefXml c.1 c.2 (100 + ns + np + nb + nc + i)) 0 (d.charts.zip chartRids)

end PptRs.Draw
