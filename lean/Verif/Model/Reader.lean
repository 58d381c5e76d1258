import Verif.Spec.XmlElement
import Verif.Model.SlideText
import Verif.Model.Package
import Verif.Model.Sort
import Verif.Model.Utf8

/-!
# Reading presentations

`oxml/slide.rs` and `oxml/presentation.rs`. The `xml` crate is represented by `Spec.document` and
`Spec.events`.
-/

namespace PptRs

/-- `XmlParser::parse_str`, src/oxml/xmlchemy.rs 131-133; `none` is an error. -/
def XmlElement.parse (x : Str) : Option XmlElement :=
  (Spec.document x).bind fun d => XmlElement.ofEvents (Spec.eventsIn d)

/-- `s.parse::<i64>()`. -/
def parseI64? (s : Str) : Option Int :=
  match s with
  | '-' :: r =>
    if r ≠ [] ∧ r.all isDig then
      if Nat.ofDigitChars 10 r 0 ≤ 9223372036854775808 then some (-(Nat.ofDigitChars 10 r 0 : Int)) else none
    else none
  | _ =>
    if dropPlus s ≠ [] ∧ (dropPlus s).all isDig then
      if Nat.ofDigitChars 10 (dropPlus s) 0 < 9223372036854775808 then
        some (Nat.ofDigitChars 10 (dropPlus s) 0 : Int) else none
    else none

namespace Reader

/-- `TextRun`, src/oxml/slide.rs 10-17. -/
structure TextRun where
  text : Str
  bold : Bool := false
  italic : Bool := false
  underline : Bool := false
  fontSize : Option Nat := none
  color : Option Str := none
deriving DecidableEq

/-- `Paragraph`, src/oxml/slide.rs 34-37. -/
structure Paragraph where
  runs : List TextRun
  level : Nat
deriving DecidableEq

/-- `Paragraph::text`, src/oxml/slide.rs 48-50. -/
def Paragraph.text (p : Paragraph) : Str := p.runs.flatMap (·.text)

/-- `ParsedShape`, src/oxml/slide.rs 61-71. -/
structure ParsedShape where
  name : Str
  shapeType : Option Str
  paragraphs : List Paragraph
  x : Int
  y : Int
  width : Int
  height : Int
  isTitle : Bool := false
  isBody : Bool := false
deriving DecidableEq

/-- `ParsedShape::text`, src/oxml/slide.rs 89-95. -/
def ParsedShape.text (s : ParsedShape) : Str := joinStr c!"\n" (s.paragraphs.map Paragraph.text)

/-- `ParsedTableCell`, src/oxml/slide.rs 100-104. -/
structure ParsedCell where
  text : Str
  rowSpan : Nat
  colSpan : Nat
deriving DecidableEq

/-- `ParsedSlide`, src/oxml/slide.rs 134-139; a table is the list of its rows. -/
structure ParsedSlide where
  shapes : List ParsedShape := []
  tables : List (List (List ParsedCell)) := []
  title : Option Str := none
  bodyText : List Str := []
deriving DecidableEq

/-- `all_text`, src/oxml/slide.rs 152-165. -/
def ParsedSlide.allText (s : ParsedSlide) : List Str :=
  s.title.toList ++ s.bodyText ++ (s.shapes.map ParsedShape.text).filter (· ≠ [])

/-- `v == "1" || v == "true"`. -/
def isOn (v : Option Str) : Bool := v = some c!"1" || v = some c!"true"

/-- The colour of run properties, src/oxml/slide.rs 284-287. -/
def runColor (rpr : XmlElement) : Option Str :=
  (rpr.findDescendant c!"solidFill").bind fun f => (f.find c!"srgbClr").bind (·.attr c!"val")

/-- The text of a run, src/oxml/slide.rs 263. -/
def runText (r : XmlElement) : Str := ((r.find c!"t").map (·.textContent)).getD []

/-- A run with the given properties, src/oxml/slide.rs 268-288. -/
def makeRun (text : Str) (rpr : Option XmlElement) : TextRun where
  text := text
  bold := isOn (rpr.bind (·.attr c!"b"))
  italic := isOn (rpr.bind (·.attr c!"i"))
  underline := (rpr.bind (·.attr c!"u")).isSome
  fontSize := rpr.bind fun e => (e.attr c!"sz").bind parseU32?
  color := rpr.bind runColor

/-- The body of the loop over runs, src/oxml/slide.rs 262-291. -/
def parseRun (r : XmlElement) : Option TextRun :=
  if runText r = [] then none else some (makeRun (runText r) (r.find c!"rPr"))

/-- The level of a paragraph, src/oxml/slide.rs 257-259. -/
def paraLevel (p : XmlElement) : Nat :=
  ((p.find c!"pPr").bind fun e => (e.attr c!"lvl").bind parseU32?).getD 0

/-- The body of the loop over paragraphs, src/oxml/slide.rs 253-296. -/
def parseParagraph (p : XmlElement) : Option Paragraph :=
  if (p.findAll c!"r").filterMap parseRun = [] then none
  else some ⟨(p.findAll c!"r").filterMap parseRun, paraLevel p⟩

/-- `parse_text_body`, src/oxml/slide.rs 250-299. -/
def parseTextBody (b : XmlElement) : List Paragraph := (b.findAll c!"p").filterMap parseParagraph

/-- An integer attribute, 0 if it is missing or not a number, src/oxml/slide.rs 228. -/
def intAttr (e : Option XmlElement) (k : Str) : Int :=
  (e.bind fun x => (x.attr k).bind parseI64?).getD 0

/-- `parse_shape`, src/oxml/slide.rs 216-248. -/
def parseShape (sp : XmlElement) : ParsedShape where
  name := ((sp.findDescendant c!"cNvPr").bind (·.attr c!"name")).getD c!"Shape"
  shapeType := (sp.findDescendant c!"prstGeom").bind (·.attr c!"prst")
  paragraphs := ((sp.findDescendant c!"txBody").map parseTextBody).getD []
  x := intAttr ((sp.findDescendant c!"xfrm").bind (·.find c!"off")) c!"x"
  y := intAttr ((sp.findDescendant c!"xfrm").bind (·.find c!"off")) c!"y"
  width := intAttr ((sp.findDescendant c!"xfrm").bind (·.find c!"ext")) c!"cx"
  height := intAttr ((sp.findDescendant c!"xfrm").bind (·.find c!"ext")) c!"cy"

/-- The placeholder of a shape, src/oxml/slide.rs 303-304. -/
def placeholder (sp : XmlElement) : Option XmlElement :=
  (sp.findDescendant c!"nvPr").bind (·.find c!"ph")

/-- `name.to_lowercase().contains(word)` for an ASCII word; letters other than ASCII letters do not
matter for the words searched for. -/
def nameHas (word : Str) (sp : XmlElement) : Bool :=
  ((sp.findDescendant c!"cNvPr").bind (·.attr c!"name")).any fun n => containsStr word (n.map Char.toLower)

/-- `is_title_shape`, src/oxml/slide.rs 301-319. -/
def isTitleShape (sp : XmlElement) : Bool :=
  ((placeholder sp).any fun ph => (ph.attr c!"type").getD [] = c!"title" ||
    (ph.attr c!"type").getD [] = c!"ctrTitle") || nameHas c!"title" sp

/-- `is_body_shape`, src/oxml/slide.rs 321-339. -/
def isBodyShape (sp : XmlElement) : Bool :=
  ((placeholder sp).any fun ph => (ph.attr c!"type").getD c!"body" = c!"body" ||
    (ph.attr c!"type").getD c!"body" = []) || nameHas c!"content" sp

/-- The body of the loop over shapes, src/oxml/slide.rs 186-203. -/
def addShape (s : ParsedSlide) (sp : XmlElement) : ParsedSlide :=
  if isTitleShape sp then
    { s with title := some (parseShape sp).text
             shapes := s.shapes ++ [{ parseShape sp with isTitle := true }] }
  else if isBodyShape sp then
    { s with bodyText := s.bodyText ++ ((parseShape sp).paragraphs.map Paragraph.text).filter (· ≠ [])
             shapes := s.shapes ++ [{ parseShape sp with isBody := true }] }
  else { s with shapes := s.shapes ++ [parseShape sp] }

/-- A cell, src/oxml/slide.rs 348-364. -/
def parseCell (tc : XmlElement) : ParsedCell where
  text := ((tc.findDescendant c!"t").map (·.textContent)).getD []
  rowSpan := ((tc.attr c!"rowSpan").bind parseU32?).getD 1
  colSpan := ((tc.attr c!"gridSpan").bind parseU32?).getD 1

/-- A row, src/oxml/slide.rs 346-368. -/
def parseRow (tr : XmlElement) : List ParsedCell := (tr.findAll c!"tc").map parseCell

/-- `parse_table_from_graphic_frame`, src/oxml/slide.rs 341-376. -/
def parseTable (gf : XmlElement) : Option (List (List ParsedCell)) :=
  (gf.findDescendant c!"tbl").bind fun tbl =>
    if ((tbl.findAll c!"tr").map parseRow).filter (· ≠ []) = [] then none
    else some (((tbl.findAll c!"tr").map parseRow).filter (· ≠ []))

/-- The shape tree, src/oxml/slide.rs 184-211. -/
def parseTree (tree : XmlElement) : ParsedSlide :=
  let s := (tree.findAll c!"sp").foldl addShape {}
  { s with tables := (tree.findAll c!"graphicFrame").filterMap parseTable }

/-- `SlideParser::parse`, src/oxml/slide.rs 179-214; `none` is an error. -/
def parseSlide (x : Str) : Option ParsedSlide :=
  (XmlElement.parse x).map fun root => ((root.findDescendant c!"spTree").map parseTree).getD {}

/-! ### Presentations -/

/-- `s.trim_start_matches("rId")`, for at most `fuel` repetitions. -/
def trimRId : Nat → Str → Str
  | 0, s => s
  | fuel + 1, s =>
    match stripPrefix? c!"rId" s with
    | some r => trimRId fuel r
    | none => s

/-- The sort key of a relationship, src/oxml/presentation.rs 178. -/
def rIdNumber (id : Str) : Nat := (parseU32? (trimRId id.length id)).getD 0

/-- Whether a relationship type is that of slides, src/oxml/presentation.rs 163-165. -/
def isSlideType (t : Str) : Bool :=
  containsStr c!"/slide" t && !containsStr c!"Layout" t && !containsStr c!"Master" t

/-- `full_path`, src/oxml/presentation.rs 167-171. -/
def slideFile (target : Str) : Str := (stripPrefix? c!"/" target).getD (c!"ppt/" ++ target)

/-- The body of the loop over relationships, src/oxml/presentation.rs 161-174. -/
def slideRelOf (rel : XmlElement) : Option (Str × Str) :=
  if isSlideType ((rel.attr c!"Type").getD []) then
    (rel.attr c!"Id").bind fun id => (rel.attr c!"Target").map fun t => (id, slideFile t)
  else none

/-- The slides of `presentation.xml.rels`, src/oxml/presentation.rs 159-183. -/
def relSlides (root : XmlElement) : List Str :=
  (sortByKey (fun r => rIdNumber r.1) ((root.findAll c!"Relationship").filterMap slideRelOf)).map (·.2)

/-- `a ≤ b` for strings: by code points (the order of UTF-8 bytes). -/
def strLe : Str → Str → Bool
  | [], _ => true
  | _ :: _, [] => false
  | a :: as, b :: bs => if a.toNat < b.toNat then true else if b.toNat < a.toNat then false else strLe as bs

/-- Inserts before the first string that is not smaller. -/
def insertStr (x : Str) : List Str → List Str
  | [] => [x]
  | y :: ys => if strLe x y then x :: y :: ys else y :: insertStr x ys

/-- `slice::sort` on strings. -/
def sortStrs (l : List Str) : List Str := l.foldr insertStr []

/-- The filter of the fallback, src/oxml/presentation.rs 192-194. -/
def isSlideFile (p : Str) : Bool :=
  startsWith c!"ppt/slides/slide" p && endsWith c!".xml" p && !containsStr c!"_rels" p

/-- The slides found through the relationships, src/oxml/presentation.rs 156-185. -/
def listedSlides (p : Package) : List Str :=
  (((p.getPartString c!"ppt/_rels/presentation.xml.rels").bind XmlElement.parse).map relSlides).getD []

/-- `slide_paths` after `parse_presentation_xml`, src/oxml/presentation.rs 154-203. -/
def slidePaths (p : Package) : List Str :=
  if listedSlides p = [] then sortStrs (p.partPaths.filter isSlideFile) else listedSlides p

/-- `get_slide`, src/oxml/presentation.rs 73-86; `none` is an error. -/
def getSlide (p : Package) (index : Nat) : Option ParsedSlide :=
  (slidePaths p)[index]?.bind fun path => (p.getPartString path).bind parseSlide

/-- `PresentationInfo`, src/oxml/presentation.rs 12-20. -/
structure Info where
  title : Option Str := none
  creator : Option Str := none
  lastModifiedBy : Option Str := none
  created : Option Str := none
  modified : Option Str := none
  revision : Option Nat := none
deriving DecidableEq

/-- The text of the first element with a name, unless it is empty, src/oxml/presentation.rs
121-124. -/
def textField (root : XmlElement) (name : Str) : Option Str :=
  ((root.findDescendant name).map (·.textContent)).filter (· ≠ [])

/-- `parse_core_properties`, src/oxml/presentation.rs 117-152. -/
def coreInfo (p : Package) : Info :=
  match (p.getPartString c!"docProps/core.xml").bind XmlElement.parse with
  | none => {}
  | some root =>
    { title := textField root c!"title"
      creator := textField root c!"creator"
      lastModifiedBy := textField root c!"lastModifiedBy"
      created := textField root c!"created"
      modified := textField root c!"modified"
      revision := (root.findDescendant c!"revision").bind fun e => parseU32? e.textContent }

end Reader

/-! ### The core properties part -/

/-- `CorePropertiesPart`, src/parts/coreprops.rs 42-53, without the path. -/
structure CoreProps where
  title : Option Str := none
  subject : Option Str := none
  creator : Option Str := none
  keywords : Option Str := none
  description : Option Str := none
  lastModifiedBy : Option Str := none
  revision : Option Nat := none
  created : Option Str := none
  modified : Option Str := none
deriving DecidableEq

/-- `from_xml`, src/parts/coreprops.rs 203-244; `none` is an error. -/
def CoreProps.fromXml (x : Str) : Option CoreProps :=
  (XmlElement.parse x).map fun root =>
    { title := Reader.textField root c!"title"
      subject := Reader.textField root c!"subject"
      creator := Reader.textField root c!"creator"
      keywords := Reader.textField root c!"keywords"
      description := Reader.textField root c!"description"
      lastModifiedBy := Reader.textField root c!"lastModifiedBy"
      revision := (root.findDescendant c!"revision").bind fun e => parseU32? e.textContent
      created := Reader.textField root c!"created"
      modified := Reader.textField root c!"modified" }

/-- The elements of `to_xml` in order, src/parts/coreprops.rs 143-190. The part's own `escape_xml` is
the one of the generators (C02). -/
def CoreProps.elements (p : CoreProps) : List (List Part) :=
  (p.title.map fun v => t!"<dc:title>{.esc v}</dc:title>").toList
  ++ (p.subject.map fun v => t!"<dc:subject>{.esc v}</dc:subject>").toList
  ++ (p.creator.map fun v => t!"<dc:creator>{.esc v}</dc:creator>").toList
  ++ (p.keywords.map fun v => t!"<cp:keywords>{.esc v}</cp:keywords>").toList
  ++ (p.description.map fun v => t!"<dc:description>{.esc v}</dc:description>").toList
  ++ (p.lastModifiedBy.map fun v => t!"<cp:lastModifiedBy>{.esc v}</cp:lastModifiedBy>").toList
  ++ (p.revision.map fun v => t!"<cp:revision>{.num v}</cp:revision>").toList
  ++ (p.created.map fun v => t!"<dcterms:created xsi:type=\"dcterms:W3CDTF\">{.raw v}</dcterms:created>").toList
  ++ (p.modified.map fun v => t!"<dcterms:modified xsi:type=\"dcterms:W3CDTF\">{.raw v}</dcterms:modified>").toList

/-- `elements.join("\n")`. -/
def joinParts : List (List Part) → List Part
  | [] => []
  | [x] => x
  | x :: y :: r => x ++ t!"\n" ++ joinParts (y :: r)

/-- The start of the part, src/parts/coreprops.rs 192-199. -/
def coreStart : List Part :=
  t!"<cp:coreProperties xmlns:cp=\"http://schemas.openxmlformats.org/package/2006/metadata/core-properties\" xmlns:dc=\"http://purl.org/dc/elements/1.1/\" xmlns:dcterms=\"http://purl.org/dc/terms/\" xmlns:dcmitype=\"http://purl.org/dc/dcmitype/\" xmlns:xsi=\"http://www.w3.org/2001/XMLSchema-instance\">
"

/-- `to_xml`, src/parts/coreprops.rs 140-201. -/
def CoreProps.toXml (p : CoreProps) : Str :=
  xmlDecl ++ fmt (coreStart ++ joinParts p.elements ++ t!"
</cp:coreProperties>")

end PptRs
