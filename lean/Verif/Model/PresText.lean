import Verif.Model.SlideText
import Verif.Model.Builder

/-!
# The text of `ppt/presentation.xml`
-/

namespace PptRs

/-- One level of `DEFAULT_TEXT_STYLE`, src/generator/package_xml.rs 20. The constant lists nine levels
that differ in the number and in the left margin, which is 457200 times the level. -/
def levelStyle (level : Nat) : List Part :=
  [.lit (c!"<a:lvl" ++ dec (level + 1) ++ c!"pPr marL=\"" ++ dec (457200 * level) ++ c!"\" algn=\"l\" defTabSz=\"457200\" rtl=\"0\" eaLnBrk=\"1\" latinLnBrk=\"0\" hangingPunct=\"1\"><a:defRPr sz=\"1800\" kern=\"1200\"><a:solidFill><a:schemeClr val=\"tx1\"/></a:solidFill><a:latin typeface=\"+mn-lt\"/><a:ea typeface=\"+mn-ea\"/><a:cs typeface=\"+mn-cs\"/></a:defRPr></a:lvl" ++ dec (level + 1) ++ c!"pPr>")]

/-- `DEFAULT_TEXT_STYLE`, src/generator/package_xml.rs 20. -/
def defaultTextStyle : List Part :=
  t!"<p:defaultTextStyle><a:defPPr><a:defRPr lang=\"en-US\"/></a:defPPr>"
    ++ [0, 1, 2, 3, 4, 5, 6, 7, 8].flatMap levelStyle ++ t!"</p:defaultTextStyle>"

/-- The entry of a slide in the slide list, src/generator/package_xml.rs 344-352. -/
def slideListEntry (n : Nat) : List Part :=
  t!"\n<p:sldId id=\"{.num (slideIdValue n)}\" r:id=\"rId{.num (slideRelId n)}\"/>"

/-- `create_presentation_xml`, src/generator/package_xml.rs 313-366. -/
def presentationText (slides : Nat) (hasNotes hasHandout : Bool) : Str :=
  xmlDecl ++ fmt (
    t!"<p:presentation xmlns:a=\"http://schemas.openxmlformats.org/drawingml/2006/main\" xmlns:r=\"http://schemas.openxmlformats.org/officeDocument/2006/relationships\" xmlns:p=\"http://schemas.openxmlformats.org/presentationml/2006/main\" saveSubsetFonts=\"1\" autoCompressPictures=\"0\">
<p:sldMasterIdLst>
<p:sldMasterId id=\"{.num slideMasterId}\" r:id=\"rId1\"/>
</p:sldMasterIdLst>"
    ++ whenSet hasNotes t!"\n<p:notesMasterIdLst>\n<p:notesMasterId r:id=\"rId{.num (notesMasterRelId slides)}\"/>\n</p:notesMasterIdLst>"
    ++ whenSet hasHandout t!"\n<p:handoutMasterIdLst>\n<p:handoutMasterId r:id=\"rId{.num (handoutMasterRelId slides hasNotes)}\"/>\n</p:handoutMasterIdLst>"
    ++ t!"\n<p:sldIdLst>" ++ (upTo slides).flatMap slideListEntry ++ t!"
</p:sldIdLst>
<p:sldSz cx=\"9144000\" cy=\"6858000\" type=\"screen4x3\"/>
<p:notesSz cx=\"6858000\" cy=\"9144000\"/>
" ++ defaultTextStyle
    ++ t!"<p:extLst><p:ext uri=\"\x7bEFAFB233-063F-42B5-8137-9DF3F51BA10A}\"><p15:sldGuideLst xmlns:p15=\"http://schemas.microsoft.com/office/powerpoint/2012/main\"/></p:ext></p:extLst></p:presentation>")

end PptRs
