import Verif.Model.Drawing
import Verif.Spec.XmlQuery

/-!
# Specification: what a reader finds for shapes, pictures and connectors on a slide
-/

namespace PptRs.Spec

open PptRs

/-- The elements with a given name in a list of nodes, not looking inside elements. -/
def named (n : Str) : List Node → List Node
  | [] => []
  | .text _ :: ks => named n ks
  | .elem m as js :: ks => if m = n then .elem m as js :: named n ks else named n ks

/-- The child elements with a given name. -/
def children (n : Str) : Node → List Node
  | .text _ => []
  | .elem _ _ ks => named n ks

/-- The elements reached by going from parent to child along a list of names. -/
def path : List Str → Node → List Node
  | [], k => [k]
  | n :: r, k => (children n k).flatMap (path r)

/-- An attribute of the first element on a path. -/
def pathAttr (p : List Str) (a : Str) (k : Node) : Option Str := (path p k).head?.bind (attrOf a)

/-- The fill of a shape. -/
inductive FillRead where
  | none
  /-- colour and opacity -/
  | solid (color alpha : Option Str)
  /-- position, colour and opacity of the stops, and the angle -/
  | gradient (stops : List (Option Str × Option Str × Option Str)) (angle : Option Str)
deriving DecidableEq

/-- The fill: the `gradFill` or `solidFill` of the shape properties. -/
def readFill (k : Node) : FillRead :=
  match path [c!"p:spPr", c!"a:gradFill"] k with
  | g :: _ =>
    .gradient ((path [c!"a:gsLst", c!"a:gs"] g).map fun s =>
        (attrOf c!"pos" s, pathAttr [c!"a:srgbClr"] c!"val" s, pathAttr [c!"a:srgbClr", c!"a:alpha"] c!"val" s))
      (pathAttr [c!"a:lin"] c!"ang" g)
  | [] =>
    match path [c!"p:spPr", c!"a:solidFill", c!"a:srgbClr"] k with
    | c :: _ => .solid (attrOf c!"val" c) (pathAttr [c!"a:alpha"] c!"val" c)
    | [] => .none

/-- The text of a paragraph: that of its runs. -/
def paragraphText (p : Node) : Str := (path [c!"a:r", c!"a:t"] p).flatMap fun
  | .text _ => []
  | .elem _ _ ks => textOf ks

/-- The paragraphs of the text body of a shape. -/
def bodyTexts (k : Node) : List Str := (path [c!"p:txBody", c!"a:p"] k).map paragraphText

/-- The place of an object: position and size. -/
structure PlaceRead where
  x : Option Str
  y : Option Str
  cx : Option Str
  cy : Option Str
deriving DecidableEq

/-- The place given by an `xfrm` element. -/
def readPlace (xfrm : List Str) (k : Node) : PlaceRead :=
  ⟨pathAttr (xfrm ++ [c!"a:off"]) c!"x" k, pathAttr (xfrm ++ [c!"a:off"]) c!"y" k,
   pathAttr (xfrm ++ [c!"a:ext"]) c!"cx" k, pathAttr (xfrm ++ [c!"a:ext"]) c!"cy" k⟩

/-- A shape as it is read. -/
structure ShapeRead where
  id : Option Str
  name : Option Str
  place : PlaceRead
  rotation : Option Str
  geometry : Option Str
  fill : FillRead
  /-- width and colour -/
  line : Option Str × Option Str
  paragraphs : List Str
  /-- relationship, tooltip and action -/
  link : Option (Option Str × Option Str × Option Str)
deriving DecidableEq

/-- Reading a `p:sp` element. -/
def readShape (k : Node) : ShapeRead where
  id := pathAttr [c!"p:nvSpPr", c!"p:cNvPr"] c!"id" k
  name := pathAttr [c!"p:nvSpPr", c!"p:cNvPr"] c!"name" k
  place := readPlace [c!"p:spPr", c!"a:xfrm"] k
  rotation := pathAttr [c!"p:spPr", c!"a:xfrm"] c!"rot" k
  geometry := pathAttr [c!"p:spPr", c!"a:prstGeom"] c!"prst" k
  fill := readFill k
  line := (pathAttr [c!"p:spPr", c!"a:ln"] c!"w" k,
    pathAttr [c!"p:spPr", c!"a:ln", c!"a:solidFill", c!"a:srgbClr"] c!"val" k)
  paragraphs := bodyTexts k
  link := (path [c!"p:nvSpPr", c!"p:cNvPr", c!"a:hlinkClick"] k).head?.map fun h =>
    (attrOf c!"r:id" h, attrOf c!"tooltip" h, attrOf c!"action" h)

/-- A picture as it is read. -/
structure PictureRead where
  id : Option Str
  name : Option Str
  description : Option Str
  place : PlaceRead
  /-- the relationship of the image -/
  image : Option Str
  /-- the cropped parts: left, top, right, bottom -/
  crop : List (Option Str)
  /-- the names of the effects -/
  effects : List Str
deriving DecidableEq

/-- The names of the elements in a list of nodes, not looking inside elements. -/
def tags : List Node → List Str
  | [] => []
  | .text _ :: ks => tags ks
  | .elem m _ _ :: ks => m :: tags ks

/-- The names of the elements directly inside an element. -/
def childTags : Node → List Str
  | .text _ => []
  | .elem _ _ ks => tags ks

/-- Reading a `p:pic` element. -/
def readPicture (k : Node) : PictureRead where
  id := pathAttr [c!"p:nvPicPr", c!"p:cNvPr"] c!"id" k
  name := pathAttr [c!"p:nvPicPr", c!"p:cNvPr"] c!"name" k
  description := pathAttr [c!"p:nvPicPr", c!"p:cNvPr"] c!"descr" k
  place := readPlace [c!"p:spPr", c!"a:xfrm"] k
  image := pathAttr [c!"p:blipFill", c!"a:blip"] c!"r:embed" k
  crop := [c!"l", c!"t", c!"r", c!"b"].map fun a => pathAttr [c!"p:blipFill", c!"a:srcRect"] a k
  effects := (path [c!"p:spPr", c!"a:effectLst"] k).flatMap childTags

/-- A point on the slide. -/
abbrev Point := Nat × Nat

/-- The end points of a connector: those of the diagonal of its box from the upper left to the lower
right corner, a flip exchanging left and right or top and bottom (ECMA-376 20.1.7.6). -/
def connectorEnds (k : Node) : Option (Point × Point) :=
  let xf := [c!"p:spPr", c!"a:xfrm"]
  let num (p : List Str) (a : Str) : Option Nat := (pathAttr p a k).bind parseU32?
  (num (xf ++ [c!"a:off"]) c!"x").bind fun x =>
  (num (xf ++ [c!"a:off"]) c!"y").bind fun y =>
  (num (xf ++ [c!"a:ext"]) c!"cx").bind fun cx =>
  (num (xf ++ [c!"a:ext"]) c!"cy").map fun cy =>
    let h := pathAttr xf c!"flipH" k = some c!"1"
    let v := pathAttr xf c!"flipV" k = some c!"1"
    ((if h then x + cx else x, if v then y + cy else y),
     (if h then x else x + cx, if v then y else y + cy))

/-- A connector as it is read. -/
structure ConnectorRead where
  id : Option Str
  ends : Option (Point × Point)
  geometry : Option Str
  width : Option Str
  color : Option Str
  dash : Option Str
  /-- kind and size of the arrows at the start and at the end -/
  head : Option (Option Str × Option Str × Option Str)
  tail : Option (Option Str × Option Str × Option Str)
  /-- the shape and the connection site that the start and the end are attached to -/
  start : Option (Option Str × Option Str)
  finish : Option (Option Str × Option Str)
deriving DecidableEq

/-- The end of a line. -/
def readArrow (n : Str) (k : Node) : Option (Option Str × Option Str × Option Str) :=
  (path [c!"p:spPr", c!"a:ln", n] k).head?.map fun e => (attrOf c!"type" e, attrOf c!"w" e, attrOf c!"len" e)

/-- What a connector is attached to. -/
def readAttached (n : Str) (k : Node) : Option (Option Str × Option Str) :=
  (path [c!"p:nvCxnSpPr", c!"p:cNvCxnSpPr", n] k).head?.map fun e => (attrOf c!"id" e, attrOf c!"idx" e)

/-- Reading a `p:cxnSp` element. -/
def readConnector (k : Node) : ConnectorRead where
  id := pathAttr [c!"p:nvCxnSpPr", c!"p:cNvPr"] c!"id" k
  ends := connectorEnds k
  geometry := pathAttr [c!"p:spPr", c!"a:prstGeom"] c!"prst" k
  width := pathAttr [c!"p:spPr", c!"a:ln"] c!"w" k
  color := pathAttr [c!"p:spPr", c!"a:ln", c!"a:solidFill", c!"a:srgbClr"] c!"val" k
  dash := pathAttr [c!"p:spPr", c!"a:ln", c!"a:prstDash"] c!"val" k
  head := readArrow c!"a:headEnd" k
  tail := readArrow c!"a:tailEnd" k
  start := readAttached c!"a:stCxn" k
  finish := readAttached c!"a:endCxn" k

/-- A chart on the slide: its place and the relationship of the chart. -/
def readChart (k : Node) : PlaceRead × Option Str :=
  (readPlace [c!"p:xfrm"] k, pathAttr [c!"a:graphic", c!"a:graphicData", c!"c:chart"] c!"r:id" k)

/-- The objects with a given name in the drawing of a slide, in document order. -/
def drawn (n : Str) (doc : List Node) : List Node := doc.flatMap (path [c!"p:cSld", c!"p:spTree", n])

/-! ### The order of elements -/

/-- A place in the content model of an element: the elements that can stand there, how many there
have to be at least, and whether there can be more than one. -/
structure Slot where
  names : List Str
  least : Nat
  many : Bool

/-- At most one of some elements. -/
def opt (l : List Str) : Slot := ⟨l, 0, false⟩
/-- Exactly one element. -/
def req (n : Str) : Slot := ⟨[n], 1, false⟩
/-- At least `k` of some elements. -/
def rep (k : Nat) (l : List Str) : Slot := ⟨l, k, true⟩

/-- A list of names follows a content model. -/
def follows : List Slot → List Str → Bool
  | [], xs => xs.isEmpty
  | ⟨ns, k, true⟩ :: os, xs =>
    decide (k ≤ (xs.takeWhile fun x => ns.contains x).length) && follows os (xs.dropWhile fun x => ns.contains x)
  | ⟨_, k, false⟩ :: os, [] => decide (k = 0) && follows os []
  | ⟨ns, k, false⟩ :: os, x :: xs =>
    if ns.contains x then follows os xs else decide (k = 0) && follows os (x :: xs)

/-- The fills. -/
def fills : Slot := opt [c!"a:noFill", c!"a:solidFill", c!"a:gradFill", c!"a:blipFill", c!"a:pattFill", c!"a:grpFill"]
/-- The effects. -/
def effectSlot : Slot := opt [c!"a:effectLst", c!"a:effectDag"]
/-- The colours. -/
def colors : List Str :=
  [c!"a:scrgbClr", c!"a:srgbClr", c!"a:hslClr", c!"a:sysClr", c!"a:schemeClr", c!"a:prstClr"]
/-- Elements that can be left out, each once. -/
def opts (l : List Str) : List Slot := l.map fun n => opt [n]

/-- The content models of the elements of a slide in the schemas of ECMA-376 (19.3, 20.1 and 21.1).
Elements that are not listed are not checked. -/
def contentModels : List (Str × List Slot) := [
  (c!"p:sld", req c!"p:cSld" :: opts [c!"p:clrMapOvr", c!"p:transition", c!"p:timing", c!"p:extLst"]),
  (c!"p:cSld", [opt [c!"p:bg"], req c!"p:spTree"] ++ opts [c!"p:custDataLst", c!"p:controls", c!"p:extLst"]),
  (c!"p:bg", [⟨[c!"p:bgPr", c!"p:bgRef"], 1, false⟩]),
  (c!"p:spTree", [req c!"p:nvGrpSpPr", req c!"p:grpSpPr",
    rep 0 [c!"p:sp", c!"p:grpSp", c!"p:graphicFrame", c!"p:cxnSp", c!"p:pic", c!"p:contentPart"], opt [c!"p:extLst"]]),
  (c!"p:nvGrpSpPr", [req c!"p:cNvPr", req c!"p:cNvGrpSpPr", req c!"p:nvPr"]),
  (c!"p:transition", opt [c!"p:blinds", c!"p:checker", c!"p:circle", c!"p:dissolve", c!"p:comb", c!"p:cover", c!"p:cut",
    c!"p:diamond", c!"p:fade", c!"p:newsflash", c!"p:plus", c!"p:pull", c!"p:push", c!"p:random", c!"p:randomBar",
    c!"p:split", c!"p:strips", c!"p:wedge", c!"p:wheel", c!"p:wipe", c!"p:zoom"] :: opts [c!"p:sndAc", c!"p:extLst"]),
  (c!"p:clrMapOvr", [⟨[c!"a:masterClrMapping", c!"a:overrideClrMapping"], 1, false⟩]),
  (c!"p:sp", [req c!"p:nvSpPr", req c!"p:spPr"] ++ opts [c!"p:style", c!"p:txBody", c!"p:extLst"]),
  (c!"p:pic", [req c!"p:nvPicPr", req c!"p:blipFill", req c!"p:spPr"] ++ opts [c!"p:style", c!"p:extLst"]),
  (c!"p:cxnSp", [req c!"p:nvCxnSpPr", req c!"p:spPr"] ++ opts [c!"p:style", c!"p:extLst"]),
  (c!"p:graphicFrame", [req c!"p:nvGraphicFramePr", req c!"p:xfrm", req c!"a:graphic", opt [c!"p:extLst"]]),
  (c!"p:nvGraphicFramePr", [req c!"p:cNvPr", req c!"p:cNvGraphicFramePr", req c!"p:nvPr"]),
  (c!"p:nvSpPr", [req c!"p:cNvPr", req c!"p:cNvSpPr", req c!"p:nvPr"]),
  (c!"p:nvPicPr", [req c!"p:cNvPr", req c!"p:cNvPicPr", req c!"p:nvPr"]),
  (c!"p:nvCxnSpPr", [req c!"p:cNvPr", req c!"p:cNvCxnSpPr", req c!"p:nvPr"]),
  (c!"p:cNvCxnSpPr", opts [c!"a:cxnSpLocks", c!"a:stCxn", c!"a:endCxn", c!"a:extLst"]),
  (c!"p:cNvPr", opts [c!"a:hlinkClick", c!"a:hlinkHover", c!"a:extLst"]),
  (c!"p:spPr", [opt [c!"a:xfrm"], opt [c!"a:custGeom", c!"a:prstGeom"], fills, opt [c!"a:ln"], effectSlot]
    ++ opts [c!"a:scene3d", c!"a:sp3d", c!"a:extLst"]),
  (c!"a:xfrm", opts [c!"a:off", c!"a:ext", c!"a:chOff", c!"a:chExt"]),
  (c!"p:xfrm", opts [c!"a:off", c!"a:ext"]),
  (c!"a:prstGeom", opts [c!"a:avLst"]),
  (c!"a:solidFill", [opt colors]),
  (c!"a:gradFill", [opt [c!"a:gsLst"], opt [c!"a:lin", c!"a:path"], opt [c!"a:tileRect"]]),
  (c!"a:gsLst", [rep 2 [c!"a:gs"]]),
  (c!"a:gs", [⟨colors, 1, false⟩]),
  (c!"a:ln", [opt [c!"a:noFill", c!"a:solidFill", c!"a:gradFill", c!"a:pattFill"], opt [c!"a:prstDash", c!"a:custDash"],
    opt [c!"a:round", c!"a:bevel", c!"a:miter"]] ++ opts [c!"a:headEnd", c!"a:tailEnd", c!"a:extLst"]),
  (c!"a:effectLst", opts [c!"a:blur", c!"a:fillOverlay", c!"a:glow", c!"a:innerShdw", c!"a:outerShdw", c!"a:prstShdw",
    c!"a:reflection", c!"a:softEdge"]),
  (c!"p:blipFill", [opt [c!"a:blip"], opt [c!"a:srcRect"], opt [c!"a:tile", c!"a:stretch"]]),
  (c!"p:txBody", [req c!"a:bodyPr", opt [c!"a:lstStyle"], rep 1 [c!"a:p"]]),
  (c!"a:txBody", [req c!"a:bodyPr", opt [c!"a:lstStyle"], rep 1 [c!"a:p"]]),
  (c!"a:p", [opt [c!"a:pPr"], rep 0 [c!"a:r", c!"a:br", c!"a:fld"], opt [c!"a:endParaRPr"]]),
  (c!"a:pPr", opts [c!"a:lnSpc", c!"a:spcBef", c!"a:spcAft"] ++ [opt [c!"a:buClrTx", c!"a:buClr"],
    opt [c!"a:buSzTx", c!"a:buSzPct", c!"a:buSzPts"], opt [c!"a:buFontTx", c!"a:buFont"],
    opt [c!"a:buNone", c!"a:buAutoNum", c!"a:buChar", c!"a:buBlip"]] ++ opts [c!"a:tabLst", c!"a:defRPr", c!"a:extLst"]),
  (c!"a:r", [opt [c!"a:rPr"], req c!"a:t"]),
  (c!"a:rPr", [opt [c!"a:ln"], fills, effectSlot, opt [c!"a:highlight"], opt [c!"a:uLnTx", c!"a:uLn"],
    opt [c!"a:uFillTx", c!"a:uFill"]] ++ opts [c!"a:latin", c!"a:ea", c!"a:cs", c!"a:sym", c!"a:hlinkClick",
    c!"a:hlinkMouseOver", c!"a:rtl", c!"a:extLst"]),
  (c!"a:tbl", [opt [c!"a:tblPr"], req c!"a:tblGrid", rep 0 [c!"a:tr"]]),
  (c!"a:tblGrid", [rep 0 [c!"a:gridCol"]]),
  (c!"a:tr", [rep 0 [c!"a:tc"], opt [c!"a:extLst"]]),
  (c!"a:tc", opts [c!"a:txBody", c!"a:tcPr", c!"a:extLst"]),
  (c!"a:tcPr", opts [c!"a:lnL", c!"a:lnR", c!"a:lnT", c!"a:lnB", c!"a:lnTlToBr", c!"a:lnBlToTr", c!"a:cell3D"]
    ++ [fills] ++ opts [c!"a:headers", c!"a:extLst"])]

/-- The content model of an element. -/
def contentModel (n : Str) : Option (List Slot) := contentModels.lookup n

/-- The elements directly inside an element follow its content model, if it is known. -/
def wellPlaced (n : Str) (ks : List Node) : Bool :=
  match contentModel n with
  | some o => follows o (tags ks)
  | none => true

mutual
/-- Every element has its child elements in the order of the schema. -/
def ordered : Node → Bool
  | .text _ => true
  | .elem n _ ks => wellPlaced n ks && orderedL ks
/-- All of a list of nodes. -/
def orderedL : List Node → Bool
  | [] => true
  | k :: ks => ordered k && orderedL ks
end

/-! ### Preset geometries -/

/-- The preset geometries: the values of `ST_ShapeType` (ECMA-376 20.1.10.56). -/
def presets : List Str :=
  [c!"line", c!"lineInv", c!"triangle", c!"rtTriangle", c!"rect", c!"diamond", c!"parallelogram",
   c!"trapezoid", c!"nonIsoscelesTrapezoid", c!"pentagon", c!"hexagon", c!"heptagon", c!"octagon",
   c!"decagon", c!"dodecagon", c!"star4", c!"star5", c!"star6", c!"star7", c!"star8", c!"star10",
   c!"star12", c!"star16", c!"star24", c!"star32", c!"roundRect", c!"round1Rect", c!"round2SameRect",
   c!"round2DiagRect", c!"snipRoundRect", c!"snip1Rect", c!"snip2SameRect", c!"snip2DiagRect",
   c!"plaque", c!"ellipse", c!"teardrop", c!"homePlate", c!"chevron", c!"pieWedge", c!"pie",
   c!"blockArc", c!"donut", c!"noSmoking", c!"rightArrow", c!"leftArrow", c!"upArrow", c!"downArrow",
   c!"stripedRightArrow", c!"notchedRightArrow", c!"bentUpArrow", c!"leftRightArrow", c!"upDownArrow",
   c!"leftUpArrow", c!"leftRightUpArrow", c!"quadArrow", c!"leftArrowCallout", c!"rightArrowCallout",
   c!"upArrowCallout", c!"downArrowCallout", c!"leftRightArrowCallout", c!"upDownArrowCallout",
   c!"quadArrowCallout", c!"bentArrow", c!"uturnArrow", c!"circularArrow", c!"leftCircularArrow",
   c!"leftRightCircularArrow", c!"curvedRightArrow", c!"curvedLeftArrow", c!"curvedUpArrow",
   c!"curvedDownArrow", c!"swooshArrow", c!"cube", c!"can", c!"lightningBolt", c!"heart", c!"sun",
   c!"moon", c!"smileyFace", c!"irregularSeal1", c!"irregularSeal2", c!"foldedCorner", c!"bevel",
   c!"frame", c!"halfFrame", c!"corner", c!"diagStripe", c!"chord", c!"arc", c!"leftBracket",
   c!"rightBracket", c!"leftBrace", c!"rightBrace", c!"bracketPair", c!"bracePair",
   c!"straightConnector1", c!"bentConnector2", c!"bentConnector3", c!"bentConnector4",
   c!"bentConnector5", c!"curvedConnector2", c!"curvedConnector3", c!"curvedConnector4",
   c!"curvedConnector5", c!"callout1", c!"callout2", c!"callout3", c!"accentCallout1",
   c!"accentCallout2", c!"accentCallout3", c!"borderCallout1", c!"borderCallout2", c!"borderCallout3",
   c!"accentBorderCallout1", c!"accentBorderCallout2", c!"accentBorderCallout3", c!"wedgeRectCallout",
   c!"wedgeRoundRectCallout", c!"wedgeEllipseCallout", c!"cloudCallout", c!"cloud", c!"ribbon",
   c!"ribbon2", c!"ellipseRibbon", c!"ellipseRibbon2", c!"leftRightRibbon", c!"verticalScroll",
   c!"horizontalScroll", c!"wave", c!"doubleWave", c!"plus", c!"flowChartProcess",
   c!"flowChartDecision", c!"flowChartInputOutput", c!"flowChartPredefinedProcess",
   c!"flowChartInternalStorage", c!"flowChartDocument", c!"flowChartMultidocument",
   c!"flowChartTerminator", c!"flowChartPreparation", c!"flowChartManualInput",
   c!"flowChartManualOperation", c!"flowChartConnector", c!"flowChartPunchedCard",
   c!"flowChartPunchedTape", c!"flowChartSummingJunction", c!"flowChartOr", c!"flowChartCollate",
   c!"flowChartSort", c!"flowChartExtract", c!"flowChartMerge", c!"flowChartOfflineStorage",
   c!"flowChartOnlineStorage", c!"flowChartMagneticTape", c!"flowChartMagneticDisk",
   c!"flowChartMagneticDrum", c!"flowChartDisplay", c!"flowChartDelay", c!"flowChartAlternateProcess",
   c!"flowChartOffpageConnector", c!"actionButtonBlank", c!"actionButtonHome", c!"actionButtonHelp",
   c!"actionButtonInformation", c!"actionButtonForwardNext", c!"actionButtonBackPrevious",
   c!"actionButtonEnd", c!"actionButtonBeginning", c!"actionButtonReturn", c!"actionButtonDocument",
   c!"actionButtonSound", c!"actionButtonMovie", c!"gear6", c!"gear9", c!"funnel", c!"mathPlus",
   c!"mathMinus", c!"mathMultiply", c!"mathDivide", c!"mathEqual", c!"mathNotEqual", c!"cornerTabs",
   c!"squareTabs", c!"plaqueTabs", c!"chartX", c!"chartStar", c!"chartPlus"]

/-- The preset geometry that a kind of shape stands for. Kinds that are not listed have no counterpart
under their name. -/
def presetOf : List (Draw.ShapeType × Str) :=
  [(.rectangle, c!"rect"), (.roundedRectangle, c!"roundRect"), (.ellipse, c!"ellipse"), (.circle, c!"ellipse"),
   (.triangle, c!"triangle"), (.rightTriangle, c!"rtTriangle"), (.diamond, c!"diamond"),
   (.pentagon, c!"pentagon"), (.hexagon, c!"hexagon"), (.octagon, c!"octagon"), (.rightArrow, c!"rightArrow"),
   (.leftArrow, c!"leftArrow"), (.upArrow, c!"upArrow"), (.downArrow, c!"downArrow"),
   (.leftRightArrow, c!"leftRightArrow"), (.upDownArrow, c!"upDownArrow"), (.bentArrow, c!"bentArrow"),
   (.uTurnArrow, c!"uturnArrow"), (.star4, c!"star4"), (.star5, c!"star5"), (.star6, c!"star6"),
   (.star8, c!"star8"), (.ribbon, c!"ribbon2"), (.wave, c!"wave"), (.wedgeRectCallout, c!"wedgeRectCallout"),
   (.wedgeEllipseCallout, c!"wedgeEllipseCallout"), (.cloudCallout, c!"cloudCallout"),
   (.flowChartProcess, c!"flowChartProcess"), (.flowChartDecision, c!"flowChartDecision"),
   (.flowChartTerminator, c!"flowChartTerminator"), (.flowChartDocument, c!"flowChartDocument"),
   (.flowChartPredefinedProcess, c!"flowChartPredefinedProcess"),
   (.flowChartInternalStorage, c!"flowChartInternalStorage"),
   (.flowChartInputOutput, c!"flowChartInputOutput"), (.flowChartManualInput, c!"flowChartManualInput"),
   (.flowChartManualOperation, c!"flowChartManualOperation"), (.flowChartConnector, c!"flowChartConnector"),
   (.flowChartPunchedCard, c!"flowChartPunchedCard"), (.flowChartPunchedTape, c!"flowChartPunchedTape"),
   (.flowChartSummingJunction, c!"flowChartSummingJunction"), (.flowChartOr, c!"flowChartOr"),
   (.flowChartCollate, c!"flowChartCollate"), (.flowChartSort, c!"flowChartSort"),
   (.flowChartExtract, c!"flowChartExtract"), (.flowChartMerge, c!"flowChartMerge"),
   (.flowChartOnlineStorage, c!"flowChartOnlineStorage"), (.flowChartDelay, c!"flowChartDelay"),
   (.flowChartMagneticTape, c!"flowChartMagneticTape"), (.flowChartMagneticDisk, c!"flowChartMagneticDisk"),
   (.flowChartMagneticDrum, c!"flowChartMagneticDrum"), (.flowChartDisplay, c!"flowChartDisplay"),
   (.flowChartPreparation, c!"flowChartPreparation"), (.curvedRightArrow, c!"curvedRightArrow"),
   (.curvedLeftArrow, c!"curvedLeftArrow"), (.curvedUpArrow, c!"curvedUpArrow"),
   (.curvedDownArrow, c!"curvedDownArrow"), (.stripedRightArrow, c!"stripedRightArrow"),
   (.notchedRightArrow, c!"notchedRightArrow"), (.chevronArrow, c!"chevron"),
   (.rightArrowCallout, c!"rightArrowCallout"), (.leftArrowCallout, c!"leftArrowCallout"),
   (.upArrowCallout, c!"upArrowCallout"), (.downArrowCallout, c!"downArrowCallout"),
   (.leftRightArrowCallout, c!"leftRightArrowCallout"), (.upDownArrowCallout, c!"upDownArrowCallout"),
   (.quadArrow, c!"quadArrow"), (.leftRightUpArrow, c!"leftRightUpArrow"), (.circularArrow, c!"circularArrow"),
   (.parallelogram, c!"parallelogram"), (.trapezoid, c!"trapezoid"),
   (.nonIsoscelesTrapezoid, c!"nonIsoscelesTrapezoid"), (.cube, c!"cube"), (.can, c!"can"),
   (.bevel, c!"bevel"), (.donut, c!"donut"), (.noSmoking, c!"noSmoking"), (.blockArc, c!"blockArc"),
   (.foldedCorner, c!"foldedCorner"), (.smileyFace, c!"smileyFace"), (.arc, c!"arc"), (.chord, c!"chord"),
   (.pie, c!"pie"), (.teardrop, c!"teardrop"), (.plaque, c!"plaque"), (.pictureFrame, c!"frame"),
   (.star10, c!"star10"), (.star12, c!"star12"), (.star16, c!"star16"), (.star24, c!"star24"),
   (.star32, c!"star32"), (.actionButtonBlank, c!"actionButtonBlank"),
   (.actionButtonHome, c!"actionButtonHome"), (.actionButtonHelp, c!"actionButtonHelp"),
   (.actionButtonInformation, c!"actionButtonInformation"),
   (.actionButtonForwardNext, c!"actionButtonForwardNext"),
   (.actionButtonBackPrevious, c!"actionButtonBackPrevious"),
   (.actionButtonBeginning, c!"actionButtonBeginning"), (.actionButtonEnd, c!"actionButtonEnd"),
   (.actionButtonReturn, c!"actionButtonReturn"), (.actionButtonDocument, c!"actionButtonDocument"),
   (.actionButtonSound, c!"actionButtonSound"), (.actionButtonMovie, c!"actionButtonMovie"),
   (.heart, c!"heart"), (.lightning, c!"lightningBolt"), (.sun, c!"sun"), (.moon, c!"moon"),
   (.cloud, c!"cloud"), (.brace, c!"leftBrace"), (.bracket, c!"leftBracket"), (.plus, c!"mathPlus"),
   (.minus, c!"mathMinus")]

/-- How arrows are called in the file format. -/
def arrowNames : List (Draw.ArrowType × Str) :=
  [(.none, c!"none"), (.triangle, c!"triangle"), (.stealth, c!"stealth"), (.diamond, c!"diamond"), (.oval, c!"oval"),
   (.opened, c!"arrow")]

/-- How sizes of arrows are called in the file format. -/
def sizeNames : List (Draw.ArrowSize × Str) := [(.small, c!"sm"), (.medium, c!"med"), (.large, c!"lg")]

/-- How dashes are called in the file format. -/
def dashNames : List (Draw.LineDash × Str) :=
  [(.solid, c!"solid"), (.dash, c!"dash"), (.dot, c!"dot"), (.dashDot, c!"dashDot"), (.dashDotDot, c!"lgDashDotDot"),
   (.longDash, c!"lgDash"), (.longDashDot, c!"lgDashDot")]

/-- The geometries of connectors. -/
def connectorNames : List (Draw.ConnectorType × Str) :=
  [(.straight, c!"straightConnector1"), (.elbow, c!"bentConnector3"), (.curved, c!"curvedConnector3")]

/-- The connection sites of the preset geometry `rect`, by index (ECMA-376 part 1,
presetShapeDefinitions.xml). -/
def rectSites : List Draw.ConnectionSite := [.top, .left, .bottom, .right]

/-- The kinds of line ends: `ST_LineEndType` (20.1.10.33). -/
def lineEnds : List Str := [c!"none", c!"triangle", c!"stealth", c!"diamond", c!"oval", c!"arrow"]

/-- The sizes of line ends: `ST_LineEndWidth`, `ST_LineEndLength` (20.1.10.34, 20.1.10.32). -/
def lineEndSizes : List Str := [c!"sm", c!"med", c!"lg"]

/-- The preset dashes: `ST_PresetLineDashVal` (20.1.10.49). -/
def presetDashes : List Str :=
  [c!"solid", c!"dot", c!"dash", c!"lgDash", c!"dashDot", c!"lgDashDot", c!"lgDashDotDot", c!"sysDash",
   c!"sysDot", c!"sysDashDot", c!"sysDashDotDot"]

end PptRs.Spec

namespace PptRs.Draw

open PptRs PptRs.Spec

/-! ### What a reader should find -/

/-- The colours of a shape and the relationship of its link contain no markup. -/
structure Shape.Safe (s : Shape) : Prop where
  fill : ∀ f ∈ s.fill, Plain f.color
  gradient : ∀ g ∈ s.gradient, ∀ x ∈ g.stops, Plain x.color
  line : ∀ l ∈ s.line, Plain l.color
  link : ∀ h ∈ s.link, ∀ r ∈ h.rId, Plain r

/-- The directions of a gradient in degrees, clockwise from the right. -/
def GradientDirection.degrees : GradientDirection → Nat
  | .horizontal => 0
  | .vertical => 90
  | .diagonalDown => 45
  | .diagonalUp => 315
  | .angle d => d

/-- The fill that a user asked for: a gradient takes precedence. Angles are given in 60000ths of a
degree. -/
def Shape.expectedFill (s : Shape) : FillRead :=
  match s.gradient with
  | some g => .gradient (g.stops.map fun x => (some (dec x.position), some x.color, x.alpha.map dec))
      (some (dec (g.direction.degrees * 60000)))
  | none =>
    match s.fill with
    | some f => .solid (some f.color) (f.alpha.map dec)
    | none => .none

/-- What should be read for a shape with the given id. -/
def Shape.expected (s : Shape) (id : Nat) : ShapeRead where
  id := some (dec id)
  name := some (c!"Shape " ++ dec id)
  place := ⟨some (dec s.x), some (dec s.y), some (dec s.width), some (dec s.height)⟩
  rotation := s.rotation.map fun r => decInt (r * 60000)
  geometry := some s.kind.presetName
  fill := s.expectedFill
  line := (s.line.map fun l => dec l.width, s.line.map (·.color))
  paragraphs :=
    match s.text with
    | none => [[]]
    | some t => if isCode t then strLines t else [t]
  link := s.link.bind fun h => h.rId.map fun r => (some r, h.tooltip, actionType h.action)

/-- A part of a crop, absent if nothing is cropped. -/
def cropValue (n : Nat) : Option Str := if 0 < n then some (dec n) else none

/-- The names of the effects. -/
def ImageEffect.tag : ImageEffect → Str
  | .shadow => c!"a:outerShdw"
  | .reflection => c!"a:reflection"
  | .glow => c!"a:glow"
  | .softEdges => c!"a:softEdge"
  | .innerShadow => c!"a:innerShdw"
  | .blur => c!"a:blur"

/-- What should be read for a picture. -/
def Picture.expected (p : Picture) (id rel : Nat) : PictureRead where
  id := some (dec id)
  name := some p.filename
  description := p.altText
  place := ⟨some (dec p.x), some (dec p.y), some (dec p.width), some (dec p.height)⟩
  image := some (c!"rId" ++ dec rel)
  crop :=
    match p.crop with
    | none => [none, none, none, none]
    | some c => [cropValue c.left, cropValue c.top, cropValue c.right, cropValue c.bottom]
  effects := p.effects.map ImageEffect.tag

/-- The end of a line as a user asked for it. -/
def arrowExpected (a : ArrowType) (s : ArrowSize) : Option (Option Str × Option Str × Option Str) :=
  if a = .none then none else some (some a.xml, some s.xml, some s.xml)

/-- What a connector should be attached to. -/
def attachedExpected (id : Option Nat) (site : Option ConnectionSite) : Option (Option Str × Option Str) :=
  match id, site with
  | some i, some s => some (some (dec i), some (dec s.index))
  | _, _ => none

/-- What should be read for a connector. -/
def Connector.expected (c : Connector) (id : Nat) : ConnectorRead where
  id := some (dec id)
  ends := some ((c.startX, c.startY), (c.endX, c.endY))
  geometry := some c.kind.presetName
  width := some (dec c.line.width)
  color := some c.line.color
  dash := some c.line.dash.xml
  head := arrowExpected c.startArrow c.arrowSize
  tail := arrowExpected c.endArrow c.arrowSize
  start := attachedExpected c.startShape c.startSite
  finish := attachedExpected c.endShape c.endSite

/-- What should be read for a code block. `highlight` gives the segments of each line; a line without
segments is shown as a space. -/
def CodeBlock.expected (b : CodeBlock) (highlight : Option (Str → Str → List (List Segment))) (id : Nat) :
    ShapeRead where
  id := some (dec id)
  name := some c!"Code Block"
  place := ⟨some (decInt b.x), some (decInt b.y), some (decInt b.width), some (decInt b.height)⟩
  rotation := none
  geometry := some c!"rect"
  fill := .solid (some c!"002B36") none
  line := (some c!"12700", some c!"073642")
  paragraphs :=
    match highlight with
    | some f => (f b.code b.language).map fun l => if l = [] then c!" " else l.flatMap (·.text)
    | none => []
  link := none

/-- The coordinates of a connector are `u32` values, its colour contains no markup. -/
structure Connector.Safe (c : Connector) : Prop where
  startX : c.startX < 4294967296
  startY : c.startY < 4294967296
  endX : c.endX < 4294967296
  endY : c.endY < 4294967296
  color : Plain c.line.color

/-- The shapes, connectors and charts of a drawing are safe. -/
structure Drawing.Safe (d : Drawing) (highlight : Option (Str → Str → List (List Segment)))
    (chartRids : List Str) : Prop where
  shapes : ∀ s ∈ d.shapes, s.Safe
  connectors : ∀ c ∈ d.connectors, c.Safe
  charts : ∀ r ∈ chartRids, Plain r
  /-- the colours given by the highlighter contain no markup -/
  code : ∀ f ∈ highlight, ∀ c l, ∀ line ∈ f c l, ∀ s ∈ line, Plain s.color

/-- The shapes that should be read, numbered from 10 unless they have an id. -/
def Drawing.expectedShapes (d : Drawing) : List ShapeRead :=
  d.shapes.zipIdx.map fun p => p.1.expected (p.1.id.getD (p.2 + 10))

/-- The code blocks that should be read. -/
def Drawing.expectedCode (d : Drawing) (highlight : Option (Str → Str → List (List Segment))) : List ShapeRead :=
  d.codeBlocks.zipIdx.map fun p => p.1.expected highlight (30 + d.shapes.length + d.pictures.length + p.2)

/-- The pictures that should be read. -/
def Drawing.expectedPictures (d : Drawing) : List PictureRead :=
  d.pictures.zipIdx.map fun p =>
    p.1.expected (20 + d.shapes.length + p.2) (2 + (if d.notes then 1 else 0) + p.2)

/-- The connectors that should be read. -/
def Drawing.expectedConnectors (d : Drawing) : List ConnectorRead :=
  d.connectors.zipIdx.map fun p =>
    p.1.expected (50 + d.shapes.length + d.pictures.length + d.codeBlocks.length + p.2)

/-- The charts that should be read. -/
def Drawing.expectedCharts (d : Drawing) (chartRids : List Str) : List (PlaceRead × Option Str) :=
  (d.charts.zip chartRids).map fun p =>
    (⟨some (dec p.1.x), some (dec p.1.y), some (dec p.1.width), some (dec p.1.height)⟩, some p.2)

/-- The order of the effects in the schema. -/
def effectOrder : List ImageEffect := [.blur, .glow, .innerShadow, .shadow, .reflection, .softEdges]

/-- What the schema needs that the writers do not see to: no text that looks like code, gradients with
two stops, effects in the order of the schema and each once, no labels on connectors, and a
highlighter that gives a line for every code block. -/
structure Drawing.Tidy (d : Drawing) (highlight : Option (Str → Str → List (List Segment))) : Prop where
  text : ∀ s ∈ d.shapes, ∀ t ∈ s.text, isCode t = false
  stops : ∀ s ∈ d.shapes, ∀ g ∈ s.gradient, 2 ≤ g.stops.length
  effects : ∀ p ∈ d.pictures, p.effects.Sublist effectOrder
  labels : ∀ c ∈ d.connectors, c.label = none
  code : ∀ b ∈ d.codeBlocks, ∃ f ∈ highlight, f b.code b.language ≠ []

end PptRs.Draw
