import Verif.Model.PresText
import Verif.Model.Validate

/-!
# The text of the generated package

The content type list, the relationship parts and `ppt/presentation.xml` as the builder writes them.
The texts of all other parts are given by the caller.
-/

namespace PptRs

/-- The MIME strings, src/generator/package_xml.rs 24-85, 409-470; src/generator/layout_parts.rs 169. -/
def ContentType.mime : ContentType → Str
  | .rels => c!"application/vnd.openxmlformats-package.relationships+xml"
  | .xml => c!"application/xml"
  | .jpeg => c!"image/jpeg"
  | .png => c!"image/png"
  | .gif => c!"image/gif"
  | .xlsx => c!"application/vnd.openxmlformats-officedocument.spreadsheetml.sheet"
  | .presentation => c!"application/vnd.openxmlformats-officedocument.presentationml.presentation.main+xml"
  | .slide => c!"application/vnd.openxmlformats-officedocument.presentationml.slide+xml"
  | .notesSlide => c!"application/vnd.openxmlformats-officedocument.presentationml.notesSlide+xml"
  | .notesMaster => c!"application/vnd.openxmlformats-officedocument.presentationml.notesMaster+xml"
  | .theme => c!"application/vnd.openxmlformats-officedocument.theme+xml"
  | .handoutMaster => c!"application/vnd.openxmlformats-officedocument.presentationml.handoutMaster+xml"
  | .chart => c!"application/vnd.openxmlformats-officedocument.drawingml.chart+xml"
  | .slideLayout => c!"application/vnd.openxmlformats-officedocument.presentationml.slideLayout+xml"
  | .slideMaster => c!"application/vnd.openxmlformats-officedocument.presentationml.slideMaster+xml"
  | .tableStyles => c!"application/vnd.openxmlformats-officedocument.presentationml.tableStyles+xml"
  | .viewProps => c!"application/vnd.openxmlformats-officedocument.presentationml.viewProps+xml"
  | .presProps => c!"application/vnd.openxmlformats-officedocument.presentationml.presProps+xml"
  | .coreProps => c!"application/vnd.openxmlformats-package.core-properties+xml"
  | .appProps => c!"application/vnd.openxmlformats-officedocument.extended-properties+xml"
  | .sigOrigin => c!"application/vnd.openxmlformats-package.digital-signature-origin"
  | .sigXml => c!"application/vnd.openxmlformats-package.digital-signature-xmlsignature+xml"
  | .fontData => c!"application/x-fontdata"
  | .ink => c!"application/vnd.openxmlformats-officedocument.presentationml.ink+xml"

/-- A `Default` element, src/generator/package_xml.rs 41-63. -/
def defaultText (e : Str × ContentType) : Str :=
  c!"<Default Extension=\"" ++ e.1 ++ c!"\" ContentType=\"" ++ e.2.mime ++ c!"\"/>"

/-- An `Override` element, src/generator/package_xml.rs 67, 73-79, 88-92. -/
def overrideText (e : Str × ContentType) : Str :=
  c!"<Override PartName=\"" ++ e.1 ++ c!"\" ContentType=\"" ++ e.2.mime ++ c!"\"/>"

/-- `content_types_opening`, src/generator/package_xml.rs 51-70. -/
def contentTypesOpeningText (exts : List Str) (chartCount : Nat) : Str :=
  c!"<?xml version=\"1.0\" encoding=\"UTF-8\" standalone=\"yes\"?>\n<Types xmlns=\"http://schemas.openxmlformats.org/package/2006/content-types\">"
    ++ (imageDefaults exts).flatMap defaultText
    ++ defaultText (c!"rels", .rels) ++ c!"\n" ++ defaultText (c!"xml", .xml)
    ++ (if chartCount > 0 then defaultText (c!"xlsx", .xlsx) else [])
    ++ overrideText (overrideOf .presentation .presentation)

/-- Overrides each on a line of its own. -/
def overrideLines (l : List (Str × ContentType)) : Str := l.flatMap fun e => '\n' :: overrideText e

/-- `create_content_types_xml_with_notes_and_charts`, src/generator/package_xml.rs 388-435, without the
closing `</Types>`. -/
def contentTypesMainText (slides notesCount chartCount : Nat) (hasHandout : Bool) (exts : List Str) : Str :=
  contentTypesOpeningText exts chartCount ++
  overrideLines ((upTo slides).map (fun i => overrideOf (.slide i) .slide) ++
    notesOverrides notesCount ++ handoutOverrides hasHandout ++ chartOverrides chartCount ++
    layoutOverrides ++ contentTypesFooter) ++ c!"\n"

/-- `[Content_Types].xml`, src/generator/builder.rs 503-540 with src/generator/package_xml.rs 439-474. The
entries for a signature, fonts and ink are inserted before the last `</Types>`, which ends the text. -/
def contentTypesText (d : Deck) (st : BuildSettings) : Str :=
  contentTypesMainText d.count (notesCount d.slides) (totalCharts d.slides) st.handout
    (buildMediaRegistry d.slides).extensions ++
  (if st.signature then defaultText (c!"sigs", .sigOrigin) ++ overrideText (overrideOf .sig .sigXml) else []) ++
  (if (st.fonts.getD []).isEmpty then [] else defaultText (c!"fntdata", .fontData)) ++
  overrideLines ((upTo (inkCount d.slides)).map fun i => overrideOf (.ink i) .ink) ++
  c!"</Types>"

/-- A relationship part with further relationships inserted before `</Relationships>`
(src/generator/package_xml.rs 166-179, 246-267). -/
def renderRelsWith (main extra : List RelEntry) : Str :=
  relsHeader ++ (main.flatMap fun r => '\n' :: renderRel r) ++ c!"\n" ++ extra.flatMap renderRel ++
    c!"</Relationships>"

/-- The text of a relationship part. The relationships of a signature and of fonts follow the others
without line breaks; all other parts are written by `renderRels` (src/generator/layout_parts.rs 147-163,
src/generator/package_cache.rs 9-12, src/generator/notes_xml.rs 100-106, 242-247,
src/generator/package_xml.rs 477-482, 520-584, src/generator/charts/embedding.rs 9-16). -/
def relsPartText (d : Deck) (st : BuildSettings) (l : List RelEntry) : PartName → Str
  | .rootRels => renderRelsWith (l.take 3) (l.drop 3)
  | .presRels =>
    let k := (presentationRels d.count (hasNotes d.slides) st.handout).length
    renderRelsWith (l.take k) (l.drop k)
  | _ => renderRels l

/-- The variants of a typeface, src/generator/slide_content/embedded_fonts.rs 213-243. `desc` is the text
of the attributes `charset`, `pitchFamily` and `panose` of a typeface. -/
def fontGroupText (desc : Str → Str) (fonts : List EmbeddedFont) (typeface : Str) : Str :=
  c!"<p:embeddedFont><p:font typeface=\"" ++ escapeXml typeface ++ c!"\"" ++ desc typeface ++ c!"/>" ++
  ((fonts.filter fun f => f.typeface = typeface).flatMap fun f =>
    c!"<p:" ++ f.style.xmlElement ++ c!" r:id=\"" ++ f.relationshipId ++ c!"\"/>") ++
  c!"</p:embeddedFont>"

/-- `EmbeddedFontList::to_xml`, src/generator/slide_content/embedded_fonts.rs 197-248. -/
def fontListText (desc : Str → Str) (fonts : List EmbeddedFont) : Str :=
  if fonts.isEmpty then []
  else
    let seen := fonts.foldl (fun seen f => if seen.contains f.typeface then seen else seen ++ [f.typeface]) []
    c!"<p:embeddedFontLst>" ++ seen.flatMap (fontGroupText desc fonts) ++ c!"</p:embeddedFontLst>"

/-- `create_presentation_xml_with_fonts`, src/generator/package_xml.rs 369-385: the font list goes before
the last `</p:presentation>`, which ends the text. -/
def presentationTextWithFonts (desc : Str → Str) (slides : Nat) (hasNotes hasHandout : Bool)
    (fonts : List EmbeddedFont) : Str :=
  match stripSuffix? c!"</p:presentation>" (presentationText slides hasNotes hasHandout) with
  | some t => t ++ fontListText desc fonts ++ c!"</p:presentation>"
  | none => presentationText slides hasNotes hasHandout

/-- The texts of the parts not spelled out here, `none` for parts that are not UTF-8. -/
abbrev PartTexts := PartName → Option Str

/-- The text of an entry. -/
def entryText (d : Deck) (st : BuildSettings) (desc : Str → Str) (texts : PartTexts) (e : Entry) :
    Option Str :=
  match e.body with
  | .contentTypes _ => some (contentTypesText d st)
  | .rels l => some (relsPartText d st l e.name)
  | .presentation _ => some (presentationTextWithFonts desc d.count (hasNotes d.slides) st.handout
      ((prepareFonts st d.count (hasNotes d.slides)).getD []))
  | _ => texts e.name

/-- The archive the builder writes, as the validator sees it. -/
def packageArchive (d : Deck) (st : BuildSettings) (desc : Str → Str) (texts : PartTexts) : Validate.Archive :=
  (buildPackage d st).map fun e => (e.name.path, entryText d st desc texts e)

end PptRs
