import Verif.Model.Quick
import Verif.Model.StaticParts
import Verif.Model.Settings
import Verif.Lemmas.Fonts

/-!
# The text of every part

What `create_pptx` and `create_pptx_with_settings` write into each XML part. The texts of slides, charts and ink are modelled
on their own; here they are given.
-/

namespace PptRs.Full

open PptRs PptRs.Themes PptRs.Settings

/-- `create_table_styles_xml`, src/generator/package_xml.rs 270-273. -/
def tableStylesText : Str := xmlDecl ++
  c!"<a:tblStyleLst xmlns:a=\"http://schemas.openxmlformats.org/drawingml/2006/main\" def=\"{5C22544A-7EE6-4342-B048-85BDC9FD1C3A}\"/>"

/-- The elements of `create_notes_master_xml`, src/generator/notes_xml.rs 111-238. -/
def notesMasterBody : List Part :=
  t!"<p:notesMaster xmlns:a=\"http://schemas.openxmlformats.org/drawingml/2006/main\" xmlns:r=\"http://schemas.openxmlformats.org/officeDocument/2006/relationships\" xmlns:p=\"http://schemas.openxmlformats.org/presentationml/2006/main\">
<p:cSld>
<p:bg><p:bgRef idx=\"1001\"><a:schemeClr val=\"bg1\"/></p:bgRef></p:bg>
<p:spTree>
<p:nvGrpSpPr>
<p:cNvPr id=\"1\" name=\"\"/>
<p:cNvGrpSpPr/>
<p:nvPr/>
</p:nvGrpSpPr>
<p:grpSpPr>
<a:xfrm>
<a:off x=\"0\" y=\"0\"/>
<a:ext cx=\"0\" cy=\"0\"/>
<a:chOff x=\"0\" y=\"0\"/>
<a:chExt cx=\"0\" cy=\"0\"/>
</a:xfrm>
</p:grpSpPr>
<p:sp>
<p:nvSpPr>
<p:cNvPr id=\"2\" name=\"Header Placeholder 1\"/>
<p:cNvSpPr>
<a:spLocks noGrp=\"1\"/>
</p:cNvSpPr>
<p:nvPr>
<p:ph type=\"hdr\" sz=\"quarter\"/>
</p:nvPr>
</p:nvSpPr>
<p:spPr>
<a:xfrm>
<a:off x=\"0\" y=\"0\"/>
<a:ext cx=\"2971800\" cy=\"458788\"/>
</a:xfrm>
<a:prstGeom prst=\"rect\">
<a:avLst/>
</a:prstGeom>
</p:spPr>
<p:txBody>
<a:bodyPr vert=\"horz\" lIns=\"91440\" tIns=\"45720\" rIns=\"91440\" bIns=\"45720\" rtlCol=\"0\"/>
<a:lstStyle>
<a:lvl1pPr algn=\"l\">
<a:defRPr sz=\"1200\"/>
</a:lvl1pPr>
</a:lstStyle>
<a:p>
<a:endParaRPr lang=\"en-US\"/>
</a:p>
</p:txBody>
</p:sp>
<p:sp>
<p:nvSpPr>
<p:cNvPr id=\"3\" name=\"Slide Image Placeholder 2\"/>
<p:cNvSpPr>
<a:spLocks noGrp=\"1\" noRot=\"1\" noChangeAspect=\"1\"/>
</p:cNvSpPr>
<p:nvPr>
<p:ph type=\"sldImg\" idx=\"2\"/>
</p:nvPr>
</p:nvSpPr>
<p:spPr>
<a:xfrm>
<a:off x=\"685800\" y=\"1143000\"/>
<a:ext cx=\"5486400\" cy=\"3086100\"/>
</a:xfrm>
<a:prstGeom prst=\"rect\">
<a:avLst/>
</a:prstGeom>
<a:noFill/>
<a:ln w=\"12700\">
<a:solidFill>
<a:prstClr val=\"black\"/>
</a:solidFill>
</a:ln>
</p:spPr>
<p:txBody>
<a:bodyPr vert=\"horz\" lIns=\"91440\" tIns=\"45720\" rIns=\"91440\" bIns=\"45720\" rtlCol=\"0\" anchor=\"ctr\"/>
<a:lstStyle/>
<a:p>
<a:endParaRPr lang=\"en-US\"/>
</a:p>
</p:txBody>
</p:sp>
<p:sp>
<p:nvSpPr>
<p:cNvPr id=\"4\" name=\"Notes Placeholder 3\"/>
<p:cNvSpPr>
<a:spLocks noGrp=\"1\"/>
</p:cNvSpPr>
<p:nvPr>
<p:ph type=\"body\" sz=\"quarter\" idx=\"3\"/>
</p:nvPr>
</p:nvSpPr>
<p:spPr>
<a:xfrm>
<a:off x=\"685800\" y=\"4400550\"/>
<a:ext cx=\"5486400\" cy=\"3600450\"/>
</a:xfrm>
<a:prstGeom prst=\"rect\">
<a:avLst/>
</a:prstGeom>
</p:spPr>
<p:txBody>
<a:bodyPr vert=\"horz\" lIns=\"91440\" tIns=\"45720\" rIns=\"91440\" bIns=\"45720\" rtlCol=\"0\"/>
<a:lstStyle/>
<a:p>
<a:pPr lvl=\"0\"/>
<a:r>
<a:rPr lang=\"en-US\"/>
<a:t>Click to edit Master text styles</a:t>
</a:r>
</a:p>
</p:txBody>
</p:sp>
</p:spTree>
</p:cSld>
<p:clrMap bg1=\"lt1\" tx1=\"dk1\" bg2=\"lt2\" tx2=\"dk2\" accent1=\"accent1\" accent2=\"accent2\" accent3=\"accent3\" accent4=\"accent4\" accent5=\"accent5\" accent6=\"accent6\" hlink=\"hlink\" folHlink=\"folHlink\"/>
<p:notesStyle>
<a:lvl1pPr marL=\"0\" algn=\"l\" defTabSz=\"914400\" rtl=\"0\" eaLnBrk=\"1\" latinLnBrk=\"0\" hangingPunct=\"1\">
<a:defRPr sz=\"1200\" kern=\"1200\">
<a:solidFill>
<a:schemeClr val=\"tx1\"/>
</a:solidFill>
<a:latin typeface=\"+mn-lt\"/>
<a:ea typeface=\"+mn-ea\"/>
<a:cs typeface=\"+mn-cs\"/>
</a:defRPr>
</a:lvl1pPr>
</p:notesStyle>
</p:notesMaster>"

/-- `create_notes_master_xml`, src/generator/notes_xml.rs 109-239. -/
def notesMasterText : Str := xmlDecl ++ fmt notesMasterBody

/-- `PresentationSettings`, src/generator/slide_content/presentation_settings.rs 14-27, without a template. -/
structure FileSettings where
  fonts : Option (List FontIn) := none
  signature : Option Signature := none
  print : Option PrintSettings := none
  theme : Option Theme := none
  slideShow : Option SlideShow := none

/-- What the package structure depends on: src/generator/builder.rs 406-459. -/
def FileSettings.build (S : FileSettings) : BuildSettings where
  fonts := S.fonts.map fun l => l.map (·.font)
  signature := S.signature.isSome
  handout := S.print.any fun p => p.what = .handouts
  theme := S.theme.isSome
  template := none

/-- The notes pages: the number of the slide and the text (src/generator/builder.rs 1183-1195). -/
def notesPagesFrom : Nat → List SlideIn → List (Nat × Str)
  | _, [] => []
  | i, s :: l => (s.notes.toList.map fun t => (i + 1, t)) ++ notesPagesFrom (i + 1) l

/-- `collect_slide_titles`, src/generator/builder.rs 465-482. -/
def titlesOf : Deck → List Str
  | .custom l => collectSlideTitles (l.map (·.title))
  | .plain n => (List.range n).map fun i => c!"Slide " ++ dec (i + 1)

/-- The text of each part: src/generator/builder.rs 563-710 and 1148-1208, 1360-1377. `secs` is the time, `own` are the texts of
slides, charts and ink. Images, fonts and workbooks are no texts. -/
def fileTexts (d : Deck) (S : FileSettings) (secs : Nat) (title : Str) (own : PartTexts) : PartTexts
  | .slide n =>
    match d with
    | .plain _ => some (Quick.plainSlideXml n c!"Presentation")
    | .custom _ => own (.slide n)
  | .chart n => own (.chart n)
  | .ink n => own (.ink n)
  | .notes n => ((notesPagesFrom 0 d.slides)[n - 1]?).map fun p => createNotesXml p.1 p.2
  | .presProps => some (createPresPropsXml S.slideShow)
  | .viewProps => some (xmlDeclTight ++ fmt viewPropsBody)
  | .tableStyles => some tableStylesText
  | .handoutMaster => some (toHandoutMasterXml ((S.print.map (·.masters)).getD ⟨none, none, false, false⟩))
  | .notesMaster => some notesMasterText
  | .theme n => some (if n = 1 then createThemeXml S.theme else officeTheme)
  | .layout n => some (createSlideLayoutXml n)
  | .master => some (createSlideMasterXml txStyles (S.print.map (·.masters)))
  | .core => some (createCorePropsXml secs title)
  | .app => some (createAppPropsXml d.count (notesCount d.slides) (titlesOf d))
  | .sigOrigin => some signatureOriginText
  | .sig => S.signature.map signatureText
  | _ => none

/-- The archive with these texts, as the validator sees it. `descOf` are the descriptions of fonts
(src/generator/slide_content/embedded_fonts.rs 221-232). -/
def fileArchive (d : Deck) (S : FileSettings) (secs : Nat) (title : Str) (own : PartTexts) : Validate.Archive :=
  packageArchive d S.build (descOf (S.fonts.getD [])) (fileTexts d S secs title own)

end PptRs.Full
