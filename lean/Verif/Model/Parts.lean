import Verif.Model.SlideText
import Verif.Model.Color

/-!
# Layouts, masters, notes and document properties

The XML of the parts that are not slides. Generated text is modelled as the list of its parts
(`Verif.Model.Template`); the definitions ending in `Body` are without the XML declaration. Sizes are natural numbers.
-/

namespace PptRs

/-- src/generator/layout_parts.rs 11-18. -/
def placeholder (id : Nat) (name type : Str) (idx : Option Nat) (x y cx cy : Nat) : List Part :=
  t!"<p:sp><p:nvSpPr><p:cNvPr id=\"{.num id}\" name=\"{.raw name}\"/><p:cNvSpPr><a:spLocks noGrp=\"1\"/></p:cNvSpPr><p:nvPr><p:ph type=\"{.raw type}\""
  ++ (match idx with
    | none => []
    | some i => t!" idx=\"{.num i}\"")
  ++ t!"/></p:nvPr></p:nvSpPr><p:spPr><a:xfrm><a:off x=\"{.num x}\" y=\"{.num y}\"/><a:ext cx=\"{.num cx}\" cy=\"{.num cy}\"/></a:xfrm><a:prstGeom prst=\"rect\"><a:avLst/></a:prstGeom><a:noFill/></p:spPr><p:txBody><a:bodyPr/><a:lstStyle/><a:p><a:endParaRPr lang=\"en-US\"/></a:p></p:txBody></p:sp>"

/-- src/generator/layout_parts.rs 20-35. -/
def layoutShell (type name : Str) (shapes : List Part) : List Part :=
  t!"<p:sldLayout xmlns:a=\"http://schemas.openxmlformats.org/drawingml/2006/main\" xmlns:r=\"http://schemas.openxmlformats.org/officeDocument/2006/relationships\" xmlns:p=\"http://schemas.openxmlformats.org/presentationml/2006/main\" type=\"{.raw type}\" preserve=\"1\">\n<p:cSld name=\"{.raw name}\">\n<p:spTree>\n<p:nvGrpSpPr><p:cNvPr id=\"1\" name=\"\"/><p:cNvGrpSpPr/><p:nvPr/></p:nvGrpSpPr>\n<p:grpSpPr><a:xfrm><a:off x=\"0\" y=\"0\"/><a:ext cx=\"0\" cy=\"0\"/><a:chOff x=\"0\" y=\"0\"/><a:chExt cx=\"0\" cy=\"0\"/></a:xfrm></p:grpSpPr>\n" ++ shapes ++ t!"\n</p:spTree>\n</p:cSld>\n<p:clrMapOvr><a:masterClrMapping/></p:clrMapOvr>\n<p:hf/>\n</p:sldLayout>"

/-- src/generator/layout_parts.rs 85-141. -/
def layoutBody (n : Nat) : List Part :=
  match n with
  | 1 => layoutShell c!"title" c!"Title Slide"
      (placeholder 2 c!"Title" c!"ctrTitle" none 1524000 1828800 6096000 1828800
        ++ placeholder 3 c!"Subtitle" c!"subTitle" none 1524000 3657600 6096000 914400)
  | 2 => layoutShell c!"obj" c!"Title and Content"
      (placeholder 2 c!"Title" c!"title" none 457200 274638 8229600 1143000
        ++ placeholder 3 c!"Content" c!"body" (some 1) 457200 1600200 8229600 4525963)
  | 3 => layoutShell c!"twoObj" c!"Two Content"
      (placeholder 2 c!"Title" c!"title" none 457200 274638 8229600 1143000
        ++ placeholder 3 c!"Content Left" c!"body" (some 1) 457200 1600200 4025400 4525963
        ++ placeholder 4 c!"Content Right" c!"body" (some 2) 4661400 1600200 4025400 4525963)
  | 4 => layoutShell c!"secHead" c!"Section Header"
      (placeholder 2 c!"Title" c!"title" none 457200 1600200 8229600 1828800
        ++ placeholder 3 c!"Subtitle" c!"body" (some 1) 457200 3657600 8229600 1371600)
  | 5 => layoutShell c!"blank" c!"Blank" []
  | 6 => layoutShell c!"titleOnly" c!"Title Only"
      (placeholder 2 c!"Title" c!"title" none 457200 274638 8229600 1143000)
  | 7 => layoutShell c!"obj" c!"Title and Big Content"
      (placeholder 2 c!"Title" c!"title" none 457200 274638 8229600 800000
        ++ placeholder 3 c!"Content" c!"body" (some 1) 457200 1200000 8229600 5000000)
  | _ => layoutShell c!"blank" c!"Blank" []

/-- src/generator/layout_parts.rs 85-141. -/
def createSlideLayoutXml (n : Nat) : Str := xmlDecl ++ fmt (layoutBody n)

/-- The fields of `PrintSettings` used by the masters (src/generator/slide_content/print_settings.rs
80-110). -/
structure PrintIn where
  header : Option Str
  footer : Option Str
  printDate : Bool
  printPageNumbers : Bool
deriving DecidableEq, Repr

/-- The footer shape. src/generator/layout_parts.rs 61-64. -/
def masterFooter (id : Nat) (footer : Str) : List Part :=
  t!"<p:sp><p:nvSpPr><p:cNvPr id=\"{.num id}\" name=\"Footer Placeholder\"/><p:cNvSpPr><a:spLocks noGrp=\"1\"/></p:cNvSpPr><p:nvPr><p:ph type=\"ftr\" sz=\"quarter\"/></p:nvPr></p:nvSpPr><p:spPr><a:xfrm><a:off x=\"3124200\" y=\"6356350\"/><a:ext cx=\"2895600\" cy=\"365125\"/></a:xfrm><a:prstGeom prst=\"rect\"><a:avLst/></a:prstGeom><a:noFill/></p:spPr><p:txBody><a:bodyPr/><a:lstStyle/><a:p><a:r><a:rPr lang=\"en-US\" sz=\"1200\"/><a:t>{.esc footer}</a:t></a:r></a:p></p:txBody></p:sp>"

/-- The date shape. src/generator/layout_parts.rs 69-71. -/
def masterDate (id : Nat) : List Part :=
  t!"<p:sp><p:nvSpPr><p:cNvPr id=\"{.num id}\" name=\"Date Placeholder\"/><p:cNvSpPr><a:spLocks noGrp=\"1\"/></p:cNvSpPr><p:nvPr><p:ph type=\"dt\" sz=\"half\"/></p:nvPr></p:nvSpPr><p:spPr><a:xfrm><a:off x=\"457200\" y=\"6356350\"/><a:ext cx=\"2133600\" cy=\"365125\"/></a:xfrm><a:prstGeom prst=\"rect\"><a:avLst/></a:prstGeom><a:noFill/></p:spPr><p:txBody><a:bodyPr/><a:lstStyle/><a:p><a:fld id=\"\x7bB6F15528-F159-4107-2D14-000000000000}\" type=\"datetimeFigureOut\"><a:rPr lang=\"en-US\" sz=\"1200\"/><a:t>6/1/2026</a:t></a:fld><a:endParaRPr lang=\"en-US\" sz=\"1200\"/></a:p></p:txBody></p:sp>"

/-- The slide number shape. src/generator/layout_parts.rs 76-78. -/
def masterNumber (id : Nat) : List Part :=
  t!"<p:sp><p:nvSpPr><p:cNvPr id=\"{.num id}\" name=\"Slide Number Placeholder\"/><p:cNvSpPr><a:spLocks noGrp=\"1\"/></p:cNvSpPr><p:nvPr><p:ph type=\"sldNum\" sz=\"quarter\"/></p:nvPr></p:nvSpPr><p:spPr><a:xfrm><a:off x=\"8610600\" y=\"6356350\"/><a:ext cx=\"533400\" cy=\"365125\"/></a:xfrm><a:prstGeom prst=\"rect\"><a:avLst/></a:prstGeom><a:noFill/></p:spPr><p:txBody><a:bodyPr/><a:lstStyle/><a:p><a:fld id=\"\x7bB6F15528-F159-4107-2D14-000000000001}\" type=\"slidenum\"><a:rPr lang=\"en-US\" sz=\"1200\"/><a:t>‹#›</a:t></a:fld><a:endParaRPr lang=\"en-US\" sz=\"1200\"/></a:p></p:txBody></p:sp>"

/-- src/generator/layout_parts.rs 38-82. The identifiers start at 2 and grow by one for each shape
written. -/
def slideMasterFooterShapes : Option PrintIn → List Part
  | none => []
  | some p =>
    let id1 := 2
    let id2 := if p.header.isSome then id1 + 1 else id1
    let id3 := if p.footer.isSome then id2 + 1 else id2
    let id4 := if p.printDate then id3 + 1 else id3
    (p.header.toList.flatMap fun _ =>
      placeholder id1 c!"Header Placeholder" c!"hdr" none 312420 213360 8519760 365125)
    ++ (p.footer.toList.flatMap fun f => masterFooter id2 f)
    ++ (if p.printDate then masterDate id3 else [])
    ++ (if p.printPageNumbers then masterNumber id4 else [])

/-- src/generator/theme_xml.rs 30-39. -/
def masterLayoutIdParts : List Part :=
  (List.range standardLayoutCount).flatMap fun i =>
    t!"\n<p:sldLayoutId id=\"{.num (2147483649 + i)}\" r:id=\"rId{.num (i + 1)}\"/>"

/-- The colour map, the layout list and the text styles of the slide master.
src/generator/theme_xml.rs 67-70. -/
def masterTail (ids styles : List Part) : List Part :=
  t!"<p:clrMap bg1=\"lt1\" tx1=\"dk1\" bg2=\"lt2\" tx2=\"dk2\" accent1=\"accent1\" accent2=\"accent2\" accent3=\"accent3\" accent4=\"accent4\" accent5=\"accent5\" accent6=\"accent6\" hlink=\"hlink\" folHlink=\"folHlink\"/>\n<p:sldLayoutIdLst>" ++ ids ++ t!"\n</p:sldLayoutIdLst>\n" ++ styles

/-- src/generator/theme_xml.rs 26-73. `styles` is the content of
src/generator/slide_master_txstyles.xml, which is inserted at the end. -/
def masterBody (styles : List Part) (print : Option PrintIn) : List Part :=
  t!"<p:sldMaster xmlns:a=\"http://schemas.openxmlformats.org/drawingml/2006/main\" xmlns:r=\"http://schemas.openxmlformats.org/officeDocument/2006/relationships\" xmlns:p=\"http://schemas.openxmlformats.org/presentationml/2006/main\">\n<p:cSld>\n<p:bg>\n<p:bgRef idx=\"1001\">\n<a:schemeClr val=\"bg1\"/>\n</p:bgRef>\n</p:bg>\n<p:spTree>\n<p:nvGrpSpPr>\n<p:cNvPr id=\"1\" name=\"\"/>\n<p:cNvGrpSpPr/>\n<p:nvPr/>\n</p:nvGrpSpPr>\n<p:grpSpPr>\n<a:xfrm>\n<a:off x=\"0\" y=\"0\"/>\n<a:ext cx=\"0\" cy=\"0\"/>\n<a:chOff x=\"0\" y=\"0\"/>\n<a:chExt cx=\"0\" cy=\"0\"/>\n</a:xfrm>\n</p:grpSpPr>\n" ++ slideMasterFooterShapes print ++ t!"\n</p:spTree>\n</p:cSld>\n" ++ masterTail masterLayoutIdParts styles ++ t!"\n</p:sldMaster>"

/-- src/generator/theme_xml.rs 26-73. -/
def createSlideMasterXml (styles : List Part) (print : Option PrintIn) : Str :=
  xmlDecl ++ fmt (masterBody styles print)

/-- src/generator/slide_content/print_settings.rs 203-208: the header shape. -/
def handoutHeader (header : Str) : List Part :=
  t!"<p:sp><p:nvSpPr><p:cNvPr id=\"2\" name=\"Header\"/><p:cNvSpPr><a:spLocks noGrp=\"1\"/></p:cNvSpPr><p:nvPr><p:ph type=\"hdr\"/></p:nvPr></p:nvSpPr><p:spPr/><p:txBody><a:bodyPr/><a:lstStyle/><a:p><a:r><a:t>{.esc header}</a:t></a:r></a:p></p:txBody></p:sp>"

/-- src/generator/slide_content/print_settings.rs 210-215: the footer shape. -/
def handoutFooter (footer : Str) : List Part :=
  t!"<p:sp><p:nvSpPr><p:cNvPr id=\"3\" name=\"Footer\"/><p:cNvSpPr><a:spLocks noGrp=\"1\"/></p:cNvSpPr><p:nvPr><p:ph type=\"ftr\"/></p:nvPr></p:nvSpPr><p:spPr/><p:txBody><a:bodyPr/><a:lstStyle/><a:p><a:r><a:t>{.esc footer}</a:t></a:r></a:p></p:txBody></p:sp>"

/-- src/generator/slide_content/print_settings.rs 217-221: the date shape. -/
def handoutDate : List Part :=
  t!"<p:sp><p:nvSpPr><p:cNvPr id=\"4\" name=\"Date\"/><p:cNvSpPr><a:spLocks noGrp=\"1\"/></p:cNvSpPr><p:nvPr><p:ph type=\"dt\"/></p:nvPr></p:nvSpPr><p:spPr/><p:txBody><a:bodyPr/><a:lstStyle/><a:p><a:fld id=\"\x7bB6F15528-F159-4107-2D14-000000000000}\" type=\"datetimeFigureOut\"><a:t/></a:fld><a:endParaRPr/></a:p></p:txBody></p:sp>"

/-- src/generator/slide_content/print_settings.rs 223-227: the slide number shape. -/
def handoutNumber : List Part :=
  t!"<p:sp><p:nvSpPr><p:cNvPr id=\"5\" name=\"Slide Number\"/><p:cNvSpPr><a:spLocks noGrp=\"1\"/></p:cNvSpPr><p:nvPr><p:ph type=\"sldNum\"/></p:nvPr></p:nvSpPr><p:spPr/><p:txBody><a:bodyPr/><a:lstStyle/><a:p><a:fld id=\"\x7bB6F15528-F159-4107-2D14-000000000001}\" type=\"slidenum\"><a:t>‹#›</a:t></a:fld><a:endParaRPr/></a:p></p:txBody></p:sp>"

/-- src/generator/slide_content/print_settings.rs 203-227. -/
def handoutShapeParts (p : PrintIn) : List Part :=
  (p.header.toList.flatMap handoutHeader)
  ++ (p.footer.toList.flatMap handoutFooter)
  ++ (if p.printDate then handoutDate else [])
  ++ (if p.printPageNumbers then handoutNumber else [])

/-- src/generator/slide_content/print_settings.rs 198-231. Its `xml_escape` (234-240) is the same
function as `escape_xml` (property C02). -/
def handoutBody (p : PrintIn) : List Part :=
  t!"<p:handoutMaster xmlns:a=\"http://schemas.openxmlformats.org/drawingml/2006/main\" xmlns:r=\"http://schemas.openxmlformats.org/officeDocument/2006/relationships\" xmlns:p=\"http://schemas.openxmlformats.org/presentationml/2006/main\"><p:cSld><p:bg><p:bgRef idx=\"1001\"><a:schemeClr val=\"bg1\"/></p:bgRef></p:bg><p:spTree><p:nvGrpSpPr><p:cNvPr id=\"1\" name=\"\"/><p:cNvGrpSpPr/><p:nvPr/></p:nvGrpSpPr><p:grpSpPr><a:xfrm><a:off x=\"0\" y=\"0\"/><a:ext cx=\"0\" cy=\"0\"/><a:chOff x=\"0\" y=\"0\"/><a:chExt cx=\"0\" cy=\"0\"/></a:xfrm></p:grpSpPr>"
  ++ handoutShapeParts p
  ++ t!"</p:spTree></p:cSld><p:clrMap bg1=\"lt1\" tx1=\"dk1\" bg2=\"lt2\" tx2=\"dk2\" accent1=\"accent1\" accent2=\"accent2\" accent3=\"accent3\" accent4=\"accent4\" accent5=\"accent5\" accent6=\"accent6\" hlink=\"hlink\" folHlink=\"folHlink\"/></p:handoutMaster>"

/-- src/generator/slide_content/print_settings.rs 198-231: there is no line break after the XML
declaration. -/
def toHandoutMasterXml (p : PrintIn) : Str :=
  c!"<?xml version=\"1.0\" encoding=\"UTF-8\" standalone=\"yes\"?>" ++ fmt (handoutBody p)

/-- `{:X}`: the hexadecimal digits of a number, at most as many as the first argument says. -/
def hexUpTo : Nat → Nat → Str
  | 0, _ => []
  | f + 1, n => if n < 16 then [hexUpper n] else hexUpTo f (n / 16) ++ [hexUpper (n % 16)]

/-- Fills up to `w` characters with zeros. -/
def zeroPad (w : Nat) (s : Str) : Str := List.replicate (w - s.length) '0' ++ s

/-- src/generator/notes_xml.rs 7-10. -/
def fieldGuid (slideNum : Nat) : Str :=
  c!"{B0E4A5D7-2C3F-4A8B-9E1D-" ++ zeroPad 12 (hexUpTo (slideNum + 1) slideNum) ++ c!"}"

/-- src/generator/notes_xml.rs 13-97. -/
def notesBody (guid : Str) (slideNum : Nat) (notes : Str) : List Part :=
  t!"<p:notes xmlns:a=\"http://schemas.openxmlformats.org/drawingml/2006/main\" xmlns:r=\"http://schemas.openxmlformats.org/officeDocument/2006/relationships\" xmlns:p=\"http://schemas.openxmlformats.org/presentationml/2006/main\">\n<p:cSld>\n<p:spTree>\n<p:nvGrpSpPr>\n<p:cNvPr id=\"1\" name=\"\"/>\n<p:cNvGrpSpPr/>\n<p:nvPr/>\n</p:nvGrpSpPr>\n<p:grpSpPr>\n<a:xfrm>\n<a:off x=\"0\" y=\"0\"/>\n<a:ext cx=\"0\" cy=\"0\"/>\n<a:chOff x=\"0\" y=\"0\"/>\n<a:chExt cx=\"0\" cy=\"0\"/>\n</a:xfrm>\n</p:grpSpPr>\n<p:sp>\n<p:nvSpPr>\n<p:cNvPr id=\"2\" name=\"Slide Image Placeholder 1\"/>\n<p:cNvSpPr>\n<a:spLocks noGrp=\"1\" noRot=\"1\" noChangeAspect=\"1\"/>\n</p:cNvSpPr>\n<p:nvPr>\n<p:ph type=\"sldImg\"/>\n</p:nvPr>\n</p:nvSpPr>\n<p:spPr/>\n</p:sp>\n<p:sp>\n<p:nvSpPr>\n<p:cNvPr id=\"3\" name=\"Notes Placeholder 2\"/>\n<p:cNvSpPr>\n<a:spLocks noGrp=\"1\"/>\n</p:cNvSpPr>\n<p:nvPr>\n<p:ph type=\"body\" idx=\"1\"/>\n</p:nvPr>\n</p:nvSpPr>\n<p:spPr/>\n<p:txBody>\n<a:bodyPr/>\n<a:lstStyle/>\n<a:p>\n<a:r>\n<a:rPr lang=\"en-US\" dirty=\"0\"/>\n<a:t>{.esc notes}</a:t>\n</a:r>\n</a:p>\n</p:txBody>\n</p:sp>\n<p:sp>\n<p:nvSpPr>\n<p:cNvPr id=\"4\" name=\"Slide Number Placeholder 3\"/>\n<p:cNvSpPr>\n<a:spLocks noGrp=\"1\"/>\n</p:cNvSpPr>\n<p:nvPr>\n<p:ph type=\"sldNum\" sz=\"quarter\" idx=\"10\"/>\n</p:nvPr>\n</p:nvSpPr>\n<p:spPr/>\n<p:txBody>\n<a:bodyPr/>\n<a:lstStyle/>\n<a:p>\n<a:fld id=\"{.raw guid}\" type=\"slidenum\">\n<a:rPr lang=\"en-US\"/>\n<a:t>{.num slideNum}</a:t>\n</a:fld>\n<a:endParaRPr lang=\"en-US\"/>\n</a:p>\n</p:txBody>\n</p:sp>\n</p:spTree>\n</p:cSld>\n<p:clrMapOvr>\n<a:masterClrMapping/>\n</p:clrMapOvr>\n</p:notes>"

/-- src/generator/notes_xml.rs 13-97. -/
def createNotesXml (slideNum : Nat) (notes : Str) : Str :=
  xmlDecl ++ fmt (notesBody (fieldGuid slideNum) slideNum notes)

/-- src/generator/props_xml.rs 29-42. The title is inserted as it is. -/
def coreBody (now title : Str) : List Part :=
  t!"<cp:coreProperties xmlns:cp=\"http://schemas.openxmlformats.org/package/2006/metadata/core-properties\" xmlns:dc=\"http://purl.org/dc/elements/1.1/\" xmlns:dcterms=\"http://purl.org/dc/terms/\" xmlns:dcmitype=\"http://purl.org/dc/dcmitype/\" xmlns:xsi=\"http://www.w3.org/2001/XMLSchema-instance\">\n<dc:title>{.raw title}</dc:title>\n<dc:creator>pptx-rs</dc:creator>\n<cp:lastModifiedBy>pptx-rs</cp:lastModifiedBy>\n<cp:revision>1</cp:revision>\n<dcterms:created xsi:type=\"dcterms:W3CDTF\">{.raw now}</dcterms:created>\n<dcterms:modified xsi:type=\"dcterms:W3CDTF\">{.raw now}</dcterms:modified>\n</cp:coreProperties>"

/-- The fields of a timestamp. -/
structure Stamp where
  year : Nat
  month : Nat
  day : Nat
  hours : Nat
  minutes : Nat
  seconds : Nat
deriving DecidableEq, Repr

/-- src/generator/props_xml.rs 9-20 and src/parts/coreprops.rs 18-33: the fields for the seconds
since 1970. -/
def stampOf (secs : Nat) : Stamp :=
  let days := secs / 86400
  let seconds := secs % 86400
  let remaining := days % 365
  ⟨1970 + days / 365, 1 + remaining / 30, 1 + remaining % 30, seconds / 3600,
    seconds % 3600 / 60, seconds % 60⟩

/-- src/generator/props_xml.rs 22-25 and src/parts/coreprops.rs 35-38. -/
def Stamp.text (t : Stamp) : Str :=
  zeroPad 4 (dec t.year) ++ c!"-" ++ zeroPad 2 (dec t.month) ++ c!"-" ++ zeroPad 2 (dec t.day) ++ c!"T"
    ++ zeroPad 2 (dec t.hours) ++ c!":" ++ zeroPad 2 (dec t.minutes) ++ c!":"
    ++ zeroPad 2 (dec t.seconds) ++ c!"Z"

/-- src/generator/props_xml.rs 29-42. -/
def createCorePropsXml (secs : Nat) (title : Str) : Str :=
  xmlDecl ++ fmt (coreBody (stampOf secs).text title)

/-- src/generator/props_xml.rs 71-76. -/
def titlesXml (titles : List Str) : List Part :=
  titles.flatMap fun t => t!"<vt:lpstr>{.esc t}</vt:lpstr>"

/-- src/generator/props_xml.rs 66-81. Its `xml_escape` (45-58) is the same function as `escape_xml`
(property C02). -/
def headingPairsAndTitles (titles : List Str) : List Part :=
  t!"<HeadingPairs><vt:vector size=\"2\" baseType=\"variant\"><vt:variant><vt:lpstr>Slide Titles</vt:lpstr></vt:variant><vt:variant><vt:i4>{.num titles.length}</vt:i4></vt:variant></vt:vector></HeadingPairs><TitlesOfParts><vt:vector size=\"{.num titles.length}\" baseType=\"lpstr\">" ++ titlesXml titles ++ t!"</vt:vector></TitlesOfParts>"

/-- src/generator/props_xml.rs 90-98. -/
def appTitles (slides : Nat) (slideTitles : List Str) : List Str :=
  if slides ≤ slideTitles.length then slideTitles.take slides
  else slideTitles ++ (List.range' slideTitles.length (slides - slideTitles.length)).map fun i =>
    c!"Slide " ++ dec (i + 1)

/-- src/generator/props_xml.rs 89-122. -/
def appBody (slides notesCount : Nat) (slideTitles : List Str) : List Part :=
  t!"<Properties xmlns=\"http://schemas.openxmlformats.org/officeDocument/2006/extended-properties\" xmlns:vt=\"http://schemas.openxmlformats.org/officeDocument/2006/docPropsVTypes\">\n<TotalTime>0</TotalTime>\n<Words>0</Words>\n<Application>pptx-rs</Application>\n<PresentationFormat>On-screen Show (4:3)</PresentationFormat>\n<Paragraphs>0</Paragraphs>\n<Slides>{.num slides}</Slides>\n<Notes>{.num notesCount}</Notes>\n<HiddenSlides>0</HiddenSlides>\n<MMClips>0</MMClips>\n<ScaleCrop>false</ScaleCrop>\n" ++ headingPairsAndTitles (appTitles slides slideTitles) ++ t!"\n<LinksUpToDate>false</LinksUpToDate>\n<SharedDoc>false</SharedDoc>\n<HyperlinksChanged>false</HyperlinksChanged>\n<AppVersion>1.0000</AppVersion>\n</Properties>"

/-- src/generator/props_xml.rs 89-122. -/
def createAppPropsXml (slides notesCount : Nat) (slideTitles : List Str) : Str :=
  xmlDecl ++ fmt (appBody slides notesCount slideTitles)

/-- src/generator/builder.rs 465-482 and 485-500, with custom slides. -/
def collectSlideTitles (titles : List Str) : List Str :=
  titles.zipIdx.map fun (t, i) => if trim t = [] then c!"Slide " ++ dec (i + 1) else t

end PptRs
