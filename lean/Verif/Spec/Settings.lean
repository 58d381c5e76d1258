import Verif.Spec.Drawing
import Verif.Spec.Parts
import Verif.Model.Settings
import Verif.Model.Theme

/-!
# Specification: settings of a presentation as a reader finds them
-/

namespace PptRs.Spec

open PptRs

/-! ### Slide show -/

/-- The slides of a show. -/
inductive RangeRead where
  | all
  | range (start finish : Option Str)
  /-- the id of a custom show of the presentation -/
  | custom (id : Option Str)
  | unknown
deriving DecidableEq

/-- An optional attribute of type `xsd:boolean` with its default. -/
def boolAttr (a : Str) (default : Bool) (k : Node) : Bool :=
  match attrOf a k with
  | some v => v = c!"1" ∨ v = c!"true"
  | none => default

/-- The settings of the slide show as they are read. -/
structure ShowRead where
  /-- the names of the elements that say how the show is presented -/
  kind : List Str
  looping : Bool
  narration : Bool
  animation : Bool
  timings : Bool
  slides : RangeRead
  pen : Option Str
deriving DecidableEq

/-- The slides of a show. -/
def readRange (k : Node) : RangeRead :=
  if children c!"p:sldAll" k ≠ [] then .all
  else match children c!"p:sldRg" k with
    | r :: _ => .range (attrOf c!"st" r) (attrOf c!"end" r)
    | [] => match children c!"p:custShow" k with
      | c :: _ => .custom (attrOf c!"id" c)
      | [] => .unknown

/-- Reading `p:showPr`, with the defaults of its attributes (ECMA-376 19.2.1.30: `loop` and `showNarration`
are false, `showAnimation` and `useTimings` are true). -/
def readShow (k : Node) : ShowRead where
  kind := (childTags k).filter fun t => [c!"p:present", c!"p:browse", c!"p:kiosk"].contains t
  looping := boolAttr c!"loop" false k
  narration := boolAttr c!"showNarration" false k
  animation := boolAttr c!"showAnimation" true k
  timings := boolAttr c!"useTimings" true k
  slides := readRange k
  pen := pathAttr [c!"p:penClr", c!"a:srgbClr"] c!"val" k

/-- The slide show settings of a presentation properties part. -/
def readShows (doc : List Node) : List ShowRead := (doc.flatMap (path [c!"p:showPr"])).map readShow

/-- The element for a kind of show. -/
def showKind : Settings.ShowType → Str
  | .speaker => c!"p:present"
  | .kiosk => c!"p:kiosk"
  | .browsed => c!"p:browse"

/-- A reader that finds the settings that were made. -/
structure ShowRead.Agrees (r : ShowRead) (s : Settings.SlideShow) : Prop where
  kind : r.kind = [showKind s.showType]
  looping : r.looping = s.looping
  animation : r.animation = !s.withoutAnimation
  pen : r.pen = some s.penColor
  all : s.slideRange = .all → r.slides = .all
  range : ∀ a b, s.slideRange = .range a b → r.slides = .range (some (dec a)) (some (dec b))

/-! ### Print -/

/-- The values of `prnWhat` (ECMA-376 19.7.10). -/
def printWhats : List Str :=
  [c!"slides", c!"handouts1", c!"handouts2", c!"handouts3", c!"handouts4", c!"handouts6", c!"handouts9", c!"notes",
   c!"outline"]

/-- The values of `clrMode` (ECMA-376 19.7.9). -/
def printColors : List Str := [c!"bw", c!"gray", c!"clr"]

/-- Print settings as they are read. -/
structure PrintRead where
  what : Str
  color : Str
  hidden : Bool
  scaled : Bool
  framed : Bool
deriving DecidableEq

/-- Reading `p:prnPr`, with the defaults of its attributes (ECMA-376 19.2.1.28: `hiddenSlides` is true). -/
def readPrint (k : Node) : PrintRead where
  what := (attrOf c!"prnWhat" k).getD c!"slides"
  color := (attrOf c!"clrMode" k).getD c!"clr"
  hidden := boolAttr c!"hiddenSlides" true k
  scaled := boolAttr c!"scaleToFitPaper" false k
  framed := boolAttr c!"frameSlides" false k

/-! ### Themes -/

/-- A theme as it is read. -/
structure ThemeRead where
  name : Option Str
  /-- the name of the colour scheme -/
  scheme : Option Str
  colors : List (Str × Option Str)
  major : Option Str
  minor : Option Str
deriving DecidableEq

/-- The value of a colour: `srgbClr`, or what the system colour was last. -/
def colorValue (k : Node) : Option Str :=
  (pathAttr [c!"a:srgbClr"] c!"val" k).or (pathAttr [c!"a:sysClr"] c!"lastClr" k)

/-- The elements among some nodes, with their names. -/
def taggedElems : List Node → List (Str × Node)
  | [] => []
  | .text _ :: ks => taggedElems ks
  | .elem n as js :: ks => (n, .elem n as js) :: taggedElems ks

/-- Reading `a:theme`. -/
def readTheme (k : Node) : ThemeRead where
  name := attrOf c!"name" k
  scheme := pathAttr [c!"a:themeElements", c!"a:clrScheme"] c!"name" k
  colors := (path [c!"a:themeElements", c!"a:clrScheme"] k).flatMap fun c =>
    (taggedElems (kidsOf c)).map fun p => (p.1, colorValue p.2)
  major := pathAttr [c!"a:themeElements", c!"a:fontScheme", c!"a:majorFont", c!"a:latin"] c!"typeface" k
  minor := pathAttr [c!"a:themeElements", c!"a:fontScheme", c!"a:minorFont", c!"a:latin"] c!"typeface" k

/-- The colours of a theme in the order of the schema (ECMA-376 20.1.6.2). -/
def wantedColors (c : Themes.Colors) : List (Str × Option Str) :=
  [(c!"a:dk1", some c.dk1), (c!"a:lt1", some c.lt1), (c!"a:dk2", some c.dk2), (c!"a:lt2", some c.lt2),
   (c!"a:accent1", some c.accent1), (c!"a:accent2", some c.accent2), (c!"a:accent3", some c.accent3),
   (c!"a:accent4", some c.accent4), (c!"a:accent5", some c.accent5), (c!"a:accent6", some c.accent6),
   (c!"a:hlink", some c.hlink), (c!"a:folHlink", some c.folHlink)]

/-! ### Embedded fonts -/

/-- An embedded font as it is read: the typeface, the character set, the pitch and family, the Panose number
and the relationship of the data of each style. -/
structure FontRead where
  typeface : Option Str
  charset : Option Str
  pitchFamily : Option Str
  panose : Option Str
  styles : List (Str × Option Str)
deriving DecidableEq

/-- Reading `p:embeddedFont`. -/
def readFont (k : Node) : FontRead where
  typeface := pathAttr [c!"p:font"] c!"typeface" k
  charset := pathAttr [c!"p:font"] c!"charset" k
  pitchFamily := pathAttr [c!"p:font"] c!"pitchFamily" k
  panose := pathAttr [c!"p:font"] c!"panose" k
  styles := ((taggedElems (kidsOf k)).filter fun p => p.1 ≠ c!"p:font").map fun p => (p.1, attrOf c!"r:id" p.2)

/-- The embedded fonts of a list. -/
def readFonts (k : Node) : List FontRead := (children c!"p:embeddedFont" k).map readFont

/-! ### Ink -/

/-- A stroke as it is read: the colour, width, tip and transparency of the brush it refers to, and the
text with the points. -/
structure StrokeRead where
  color : Option Str
  width : Option Str
  tip : Option Str
  transparency : Option Str
  points : Str
deriving DecidableEq

/-- Something a reference `#id` refers to: the element with that id. -/
def referred (name : Str) (ref : Option Str) (k : Node) : Option Node :=
  match ref with
  | some ('#' :: id) => (children name k).find? fun b => attrOf c!"id" b = some id
  | _ => none

/-- Reading a trace of an ink part. -/
def readTrace (ink t : Node) : Option StrokeRead :=
  (referred c!"ink:brush" (attrOf c!"brushRef" t) ink).map fun b =>
    ⟨attrOf c!"color" b, attrOf c!"width" b, attrOf c!"tip" b, attrOf c!"transparency" b, textOf (kidsOf t)⟩

/-- The strokes of an ink part. -/
def readInk (ink : Node) : List (Option StrokeRead) := (children c!"ink:trace" ink).map (readTrace ink)

/-- The points of a trace in InkML: separated by commas, the values of a point by blanks (InkML 3.2.1). -/
def inkPoints (s : Str) : List (List Str) := (splitChar ',' s).map (splitChar ' ')

mutual
/-- Whether an attribute is on any element. -/
def hasAttr (a : Str) : Node → Bool
  | .text _ => false
  | .elem _ as ks => (as.lookup a).isSome || hasAttrL a ks
/-- On any element of a list. -/
def hasAttrL (a : Str) : List Node → Bool
  | [] => false
  | k :: ks => hasAttr a k || hasAttrL a ks
end

/-! ### Content models -/

/-- A node whose elements follow the content models of a table. -/
def placedBy (t : List (Str × List Slot)) (n : Str) (ks : List Node) : Bool :=
  match t.lookup n with
  | some o => follows o (tags ks)
  | none => true

mutual
/-- Every element has its child elements in the order of a table of content models. -/
def orderedBy (t : List (Str × List Slot)) : Node → Bool
  | .text _ => true
  | .elem n _ ks => placedBy t n ks && orderedByL t ks
/-- All of a list of nodes. -/
def orderedByL (t : List (Str × List Slot)) : List Node → Bool
  | [] => true
  | k :: ks => orderedBy t k && orderedByL t ks
end

/-- The content models of the properties of text levels. -/
def levelModel : List Slot :=
  opts [c!"a:lnSpc", c!"a:spcBef", c!"a:spcAft"] ++ [opt [c!"a:buClrTx", c!"a:buClr"],
    opt [c!"a:buSzTx", c!"a:buSzPct", c!"a:buSzPts"], opt [c!"a:buFontTx", c!"a:buFont"],
    opt [c!"a:buNone", c!"a:buAutoNum", c!"a:buChar", c!"a:buBlip"]] ++ opts [c!"a:tabLst", c!"a:defRPr", c!"a:extLst"]

/-- The content model of a text style. -/
def listStyleModel : List Slot :=
  opts [c!"a:defPPr", c!"a:lvl1pPr", c!"a:lvl2pPr", c!"a:lvl3pPr", c!"a:lvl4pPr", c!"a:lvl5pPr", c!"a:lvl6pPr",
    c!"a:lvl7pPr", c!"a:lvl8pPr", c!"a:lvl9pPr", c!"a:extLst"]

/-- The content models of the parts of a presentation other than slides (ECMA-376 19.2, 19.3 and 20.1.6),
without those of `contentModels`. -/
def partModels : List (Str × List Slot) := [
  (c!"p:presentation", opts [c!"p:sldMasterIdLst", c!"p:notesMasterIdLst", c!"p:handoutMasterIdLst", c!"p:sldIdLst",
    c!"p:sldSz"] ++ [req c!"p:notesSz"] ++ opts [c!"p:smartTags", c!"p:embeddedFontLst", c!"p:custShowLst",
    c!"p:photoAlbum", c!"p:custDataLst", c!"p:kinsoku", c!"p:defaultTextStyle", c!"p:modifyVerifier", c!"p:extLst"]),
  (c!"p:sldMasterIdLst", [rep 0 [c!"p:sldMasterId"]]),
  (c!"p:notesMasterIdLst", opts [c!"p:notesMasterId"]),
  (c!"p:handoutMasterIdLst", opts [c!"p:handoutMasterId"]),
  (c!"p:sldIdLst", [rep 0 [c!"p:sldId"]]),
  (c!"p:embeddedFontLst", [rep 0 [c!"p:embeddedFont"]]),
  (c!"p:embeddedFont", req c!"p:font" :: opts [c!"p:regular", c!"p:bold", c!"p:italic", c!"p:boldItalic"]),
  (c!"p:defaultTextStyle", listStyleModel),
  (c!"p:extLst", [rep 0 [c!"p:ext"]]),
  (c!"p:presentationPr", opts [c!"p:htmlPubPr", c!"p:webPr", c!"p:prnPr", c!"p:showPr", c!"p:clrMru", c!"p:extLst"]),
  (c!"p:showPr", [opt [c!"p:present", c!"p:browse", c!"p:kiosk"], opt [c!"p:sldAll", c!"p:sldRg", c!"p:custShow"],
    opt [c!"p:penClr"], opt [c!"p:extLst"]]),
  (c!"p:penClr", [⟨colors, 1, false⟩]),
  (c!"p:custShow", []),
  (c!"p:sldRg", []),
  (c!"p:viewPr", opts [c!"p:normalViewPr", c!"p:slideViewPr", c!"p:outlineViewPr", c!"p:notesTextViewPr", c!"p:sorterViewPr",
    c!"p:notesViewPr", c!"p:gridSpacing", c!"p:extLst"]),
  (c!"p:normalViewPr", [req c!"p:restoredLeft", req c!"p:restoredTop", opt [c!"p:extLst"]]),
  (c!"p:slideViewPr", [req c!"p:cSldViewPr", opt [c!"p:extLst"]]),
  (c!"p:cSldViewPr", req c!"p:cViewPr" :: opts [c!"p:guideLst"]),
  (c!"p:cViewPr", [req c!"p:scale", req c!"p:origin"]),
  (c!"p:scale", [req c!"a:sx", req c!"a:sy"]),
  (c!"p:notesTextViewPr", [req c!"p:cViewPr", opt [c!"p:extLst"]]),
  (c!"p:sldMaster", [req c!"p:cSld", req c!"p:clrMap"] ++ opts [c!"p:sldLayoutIdLst", c!"p:transition", c!"p:timing", c!"p:hf",
    c!"p:txStyles", c!"p:extLst"]),
  (c!"p:sldLayoutIdLst", [rep 0 [c!"p:sldLayoutId"]]),
  (c!"p:txStyles", opts [c!"p:titleStyle", c!"p:bodyStyle", c!"p:otherStyle", c!"p:extLst"]),
  (c!"p:titleStyle", listStyleModel),
  (c!"p:bodyStyle", listStyleModel),
  (c!"p:otherStyle", listStyleModel),
  (c!"p:sldLayout", req c!"p:cSld" :: opts [c!"p:clrMapOvr", c!"p:transition", c!"p:timing", c!"p:hf", c!"p:extLst"]),
  (c!"p:notes", req c!"p:cSld" :: opts [c!"p:clrMapOvr", c!"p:extLst"]),
  (c!"p:notesMaster", [req c!"p:cSld", req c!"p:clrMap"] ++ opts [c!"p:hf", c!"p:notesStyle", c!"p:extLst"]),
  (c!"p:handoutMaster", [req c!"p:cSld", req c!"p:clrMap"] ++ opts [c!"p:hf", c!"p:extLst"]),
  (c!"a:fld", opts [c!"a:rPr", c!"a:pPr", c!"a:t"]),
  (c!"a:defPPr", levelModel),
  (c!"a:lvl1pPr", levelModel), (c!"a:lvl2pPr", levelModel), (c!"a:lvl3pPr", levelModel),
  (c!"a:lvl4pPr", levelModel), (c!"a:lvl5pPr", levelModel), (c!"a:lvl6pPr", levelModel),
  (c!"a:lvl7pPr", levelModel), (c!"a:lvl8pPr", levelModel), (c!"a:lvl9pPr", levelModel),
  (c!"a:defRPr", [opt [c!"a:ln"], fills, effectSlot, opt [c!"a:highlight"], opt [c!"a:uLnTx", c!"a:uLn"],
    opt [c!"a:uFillTx", c!"a:uFill"]] ++ opts [c!"a:latin", c!"a:ea", c!"a:cs", c!"a:sym", c!"a:hlinkClick",
    c!"a:hlinkMouseOver", c!"a:rtl", c!"a:extLst"]),
  (c!"a:theme", req c!"a:themeElements" :: opts [c!"a:objectDefaults", c!"a:extraClrSchemeLst", c!"a:custClrLst", c!"a:extLst"]),
  (c!"a:themeElements", [req c!"a:clrScheme", req c!"a:fontScheme", req c!"a:fmtScheme", opt [c!"a:extLst"]]),
  (c!"a:clrScheme", [req c!"a:dk1", req c!"a:lt1", req c!"a:dk2", req c!"a:lt2", req c!"a:accent1", req c!"a:accent2",
    req c!"a:accent3", req c!"a:accent4", req c!"a:accent5", req c!"a:accent6", req c!"a:hlink", req c!"a:folHlink",
    opt [c!"a:extLst"]]),
  (c!"a:dk1", [⟨colors, 1, false⟩]), (c!"a:lt1", [⟨colors, 1, false⟩]), (c!"a:dk2", [⟨colors, 1, false⟩]),
  (c!"a:lt2", [⟨colors, 1, false⟩]), (c!"a:accent1", [⟨colors, 1, false⟩]), (c!"a:accent2", [⟨colors, 1, false⟩]),
  (c!"a:accent3", [⟨colors, 1, false⟩]), (c!"a:accent4", [⟨colors, 1, false⟩]), (c!"a:accent5", [⟨colors, 1, false⟩]),
  (c!"a:accent6", [⟨colors, 1, false⟩]), (c!"a:hlink", [⟨colors, 1, false⟩]), (c!"a:folHlink", [⟨colors, 1, false⟩]),
  (c!"a:fontScheme", [req c!"a:majorFont", req c!"a:minorFont", opt [c!"a:extLst"]]),
  (c!"a:majorFont", [req c!"a:latin", req c!"a:ea", req c!"a:cs", rep 0 [c!"a:font"], opt [c!"a:extLst"]]),
  (c!"a:minorFont", [req c!"a:latin", req c!"a:ea", req c!"a:cs", rep 0 [c!"a:font"], opt [c!"a:extLst"]]),
  (c!"a:fmtScheme", [req c!"a:fillStyleLst", req c!"a:lnStyleLst", req c!"a:effectStyleLst", req c!"a:bgFillStyleLst"]),
  (c!"a:lnStyleLst", [rep 3 [c!"a:ln"]]),
  (c!"a:effectStyleLst", [rep 3 [c!"a:effectStyle"]])]

/-- The content models of all parts. -/
def allModels : List (Str × List Slot) := partModels ++ contentModels

end PptRs.Spec
