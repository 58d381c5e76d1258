import Verif.Model.TablePart
import Verif.Model.Repair

/-!
# The other parts, src/parts

Each part has a path, a kind, a content type, and XML that is written from its fields, or kept as it was read.

Simplifications: `to_lowercase` on extensions is the ASCII mapping; the data of media is not modelled.
-/

namespace PptRs.PartDocs

open PptRs.TablePart (joined)

/-! ### Kinds and content types -/

/-- `ContentType`, src/parts/base.rs 9-26. -/
inductive CType where
  | presentation | slide | slideLayout | slideMaster | theme | notesSlide | notesMaster
  | image (format : Str) | media (format : Str)
  | chart | table | coreProperties | extendedProperties | contentTypes | relationships | xml

/-- `ContentType::mime_type`, src/parts/base.rs 30-91. -/
def CType.mime : CType → Str
  | .presentation => c!"application/vnd.openxmlformats-officedocument.presentationml.presentation.main+xml"
  | .slide => c!"application/vnd.openxmlformats-officedocument.presentationml.slide+xml"
  | .slideLayout => c!"application/vnd.openxmlformats-officedocument.presentationml.slideLayout+xml"
  | .slideMaster => c!"application/vnd.openxmlformats-officedocument.presentationml.slideMaster+xml"
  | .theme => c!"application/vnd.openxmlformats-officedocument.theme+xml"
  | .notesSlide => c!"application/vnd.openxmlformats-officedocument.presentationml.notesSlide+xml"
  | .notesMaster => c!"application/vnd.openxmlformats-officedocument.presentationml.notesMaster+xml"
  | .image f =>
    if f = c!"png" then c!"image/png"
    else if f = c!"jpeg" ∨ f = c!"jpg" then c!"image/jpeg"
    else if f = c!"gif" then c!"image/gif"
    else if f = c!"bmp" then c!"image/bmp"
    else if f = c!"tiff" then c!"image/tiff"
    else if f = c!"svg" then c!"image/svg+xml"
    else c!"application/octet-stream"
  | .media f =>
    if f = c!"mp4" then c!"video/mp4"
    else if f = c!"webm" then c!"video/webm"
    else if f = c!"avi" then c!"video/x-msvideo"
    else if f = c!"wmv" then c!"video/x-ms-wmv"
    else if f = c!"mov" then c!"video/quicktime"
    else if f = c!"mp3" then c!"audio/mpeg"
    else if f = c!"wav" then c!"audio/wav"
    else if f = c!"wma" then c!"audio/x-ms-wma"
    else if f = c!"m4a" then c!"audio/mp4"
    else if f = c!"ogg" then c!"audio/ogg"
    else c!"application/octet-stream"
  | .chart => c!"application/vnd.openxmlformats-officedocument.drawingml.chart+xml"
  | .table => c!"application/vnd.openxmlformats-officedocument.drawingml.table+xml"
  | .coreProperties => c!"application/vnd.openxmlformats-package.core-properties+xml"
  | .extendedProperties => c!"application/vnd.openxmlformats-officedocument.extended-properties+xml"
  | .contentTypes => c!"application/vnd.openxmlformats-package.content-types+xml"
  | .relationships => c!"application/vnd.openxmlformats-package.relationships+xml"
  | .xml => c!"application/xml"

/-- `PartType`, src/parts/base.rs 96-112, as far as it is used here. -/
inductive PType where
  | slide | slideLayout | slideMaster | theme | notesSlide | image | media | extendedProperties | relationships | contentTypes
deriving DecidableEq

/-! ### Content types -/

/-- `ContentTypesPart`, src/parts/content_types.rs 42-45: pairs of an extension or part name and a content type. -/
structure TypesPart where
  defaults : List (Str × Str)
  overrides : List (Str × Str)

/-- `ContentTypesPart::new`, src/parts/content_types.rs 49-70. -/
def TypesPart.new : TypesPart where
  defaults := [
    (c!"rels", c!"application/vnd.openxmlformats-package.relationships+xml"),
    (c!"xml", c!"application/xml"),
    (c!"jpeg", c!"image/jpeg"),
    (c!"jpg", c!"image/jpeg"),
    (c!"png", c!"image/png"),
    (c!"gif", c!"image/gif"),
    (c!"bmp", c!"image/bmp"),
    (c!"tiff", c!"image/tiff"),
    (c!"svg", c!"image/svg+xml"),
    (c!"mp4", c!"video/mp4"),
    (c!"mp3", c!"audio/mpeg"),
    (c!"wav", c!"audio/wav")]
  overrides := []

/-- A call of one of the methods that add a type. -/
inductive TypesOp where
  | default (extension type : Str)
  | override (name type : Str)
  | presentation
  | slide (n : Nat)
  | slideLayout (n : Nat)
  | slideMaster (n : Nat)
  | theme (n : Nat)
  | notesSlide (n : Nat)
  | chart (n : Nat)
  | coreProperties
  | appProperties

/-- `add_override`, src/parts/content_types.rs 79-82. -/
def TypesPart.override (p : TypesPart) (n t : Str) : TypesPart := { p with overrides := p.overrides ++ [(n, t)] }

/-- The methods, src/parts/content_types.rs 73-154. -/
def TypesPart.run (p : TypesPart) : TypesOp → TypesPart
  | .default e t => { p with defaults := p.defaults ++ [(e, t)] }
  | .override n t => p.override n t
  | .presentation => p.override c!"/ppt/presentation.xml" c!"application/vnd.openxmlformats-officedocument.presentationml.presentation.main+xml"
  | .slide n => p.override (c!"/ppt/slides/slide" ++ dec n ++ c!".xml") c!"application/vnd.openxmlformats-officedocument.presentationml.slide+xml"
  | .slideLayout n => p.override (c!"/ppt/slideLayouts/slideLayout" ++ dec n ++ c!".xml") c!"application/vnd.openxmlformats-officedocument.presentationml.slideLayout+xml"
  | .slideMaster n => p.override (c!"/ppt/slideMasters/slideMaster" ++ dec n ++ c!".xml") c!"application/vnd.openxmlformats-officedocument.presentationml.slideMaster+xml"
  | .theme n => p.override (c!"/ppt/theme/theme" ++ dec n ++ c!".xml") c!"application/vnd.openxmlformats-officedocument.theme+xml"
  | .notesSlide n => p.override (c!"/ppt/notesSlides/notesSlide" ++ dec n ++ c!".xml") c!"application/vnd.openxmlformats-officedocument.presentationml.notesSlide+xml"
  | .chart n => p.override (c!"/ppt/charts/chart" ++ dec n ++ c!".xml") c!"application/vnd.openxmlformats-officedocument.drawingml.chart+xml"
  | .coreProperties => p.override c!"/docProps/core.xml" c!"application/vnd.openxmlformats-package.core-properties+xml"
  | .appProperties => p.override c!"/docProps/app.xml" c!"application/vnd.openxmlformats-officedocument.extended-properties+xml"

/-- One default, src/parts/content_types.rs 161-164. -/
def defaultXml (d : Str × Str) : List Part := t!"<Default Extension=\"{.raw d.1}\" ContentType=\"{.raw d.2}\"/>"

/-- One override, src/parts/content_types.rs 173-176. -/
def overrideXml (d : Str × Str) : List Part := t!"<Override PartName=\"{.raw d.1}\" ContentType=\"{.raw d.2}\"/>"

/-- `generate_xml`, src/parts/content_types.rs 156-189. -/
def TypesPart.toXml (p : TypesPart) : Str :=
  xmlDecl ++ fmt (t!"<Types xmlns=\"http://schemas.openxmlformats.org/package/2006/content-types\">"
    ++ (t!"\n  " ++ joined t!"\n  " (p.defaults.map defaultXml)) ++ (t!"\n  " ++ joined t!"\n  " (p.overrides.map overrideXml))
    ++ t!"\n</Types>")

/-- `from_xml`, src/parts/content_types.rs 215-218. -/
def TypesPart.fromXml (_ : Str) : TypesPart := .new

/-! ### Application properties -/

/-- `AppPropertiesPart`, src/parts/app_props.rs 10-50, with the defaults of `new`. -/
structure AppPart where
  application : Str := c!"Microsoft Office PowerPoint"
  appVersion : Str := c!"16.0000"
  company : Option Str := none
  presentationFormat : Str := c!"On-screen Show (4:3)"
  slides : Nat := 0
  paragraphs : Nat := 0
  words : Nat := 0
  notes : Nat := 0
  hiddenSlides : Nat := 0
  mmClips : Nat := 0
  scaleCrop : Bool := false
  linksUpToDate : Bool := false
  sharedDoc : Bool := false
  hyperlinksChanged : Bool := false
  kept : Option Str := none

/-- A printed `bool`. -/
def yesNo (b : Bool) : Str := if b then c!"true" else c!"false"

/-- The end of the part, src/parts/app_props.rs 85-96. -/
def AppPart.tail (p : AppPart) : List Part := t!"  <PresentationFormat>{.raw p.presentationFormat}</PresentationFormat>
  <Slides>{.num p.slides}</Slides>
  <Paragraphs>{.num p.paragraphs}</Paragraphs>
  <Words>{.num p.words}</Words>
  <Notes>{.num p.notes}</Notes>
  <HiddenSlides>{.num p.hiddenSlides}</HiddenSlides>
  <MMClips>{.num p.mmClips}</MMClips>
  <ScaleCrop>{.raw (yesNo p.scaleCrop)}</ScaleCrop>
  <LinksUpToDate>{.raw (yesNo p.linksUpToDate)}</LinksUpToDate>
  <SharedDoc>{.raw (yesNo p.sharedDoc)}</SharedDoc>
  <HyperlinksChanged>{.raw (yesNo p.hyperlinksChanged)}</HyperlinksChanged>
</Properties>"

/-- `generate_xml`, src/parts/app_props.rs 72-112. -/
def AppPart.generate (p : AppPart) : Str :=
  xmlDecl ++ fmt (t!"<Properties xmlns=\"http://schemas.openxmlformats.org/officeDocument/2006/extended-properties\" xmlns:vt=\"http://schemas.openxmlformats.org/officeDocument/2006/docPropsVTypes\">
  <Application>{.raw p.application}</Application>
  <AppVersion>{.raw p.appVersion}</AppVersion>
  " ++ whenSome p.company (fun c => t!"<Company>{.raw c}</Company>") ++ t!"\n" ++ p.tail)

/-- `to_xml`, src/parts/app_props.rs 134-139. -/
def AppPart.toXml (p : AppPart) : Str := p.kept.getD p.generate

/-- `from_xml`, src/parts/app_props.rs 141-145. -/
def AppPart.fromXml (x : Str) : AppPart := { kept := some x }

/-! ### Notes -/

/-- `NotesSlidePart`, src/parts/notes_slide.rs 11-36. -/
structure NotesPart where
  number : Nat
  text : Str := []
  kept : Option Str := none

/-- `path`, src/parts/notes_slide.rs 23. -/
def NotesPart.path (p : NotesPart) : Str := c!"ppt/notesSlides/notesSlide" ++ dec p.number ++ c!".xml"

/-- `rel_target`, src/parts/notes_slide.rs 60-62. -/
def NotesPart.relTarget (p : NotesPart) : Str := c!"../notesSlides/notesSlide" ++ dec p.number ++ c!".xml"

/-- `set_notes_text`, src/parts/notes_slide.rs 49-52. -/
def NotesPart.setText (p : NotesPart) (t : Str) : NotesPart := { p with text := t, kept := none }

/-- One paragraph, src/parts/notes_slide.rs 71-74. -/
def noteLine (l : Str) : List Part := t!"<a:p><a:r><a:rPr lang=\"en-US\"/><a:t>{.esc l}</a:t></a:r></a:p>"

/-- The paragraphs, src/parts/notes_slide.rs 65-78. -/
def NotesPart.paragraphs (p : NotesPart) : List Part :=
  if p.text = [] then t!"<a:p><a:endParaRPr lang=\"en-US\"/></a:p>"
  else joined t!"\n              " ((strLines p.text).map noteLine)

/-- The start of the part, src/parts/notes_slide.rs 82-115. -/
def notesHead : List Part := t!"<p:notes xmlns:a=\"http://schemas.openxmlformats.org/drawingml/2006/main\" xmlns:r=\"http://schemas.openxmlformats.org/officeDocument/2006/relationships\" xmlns:p=\"http://schemas.openxmlformats.org/presentationml/2006/main\">
  <p:cSld>
    <p:spTree>
      <p:nvGrpSpPr>
        <p:cNvPr id=\"1\" name=\"\"/>
        <p:cNvGrpSpPr/>
        <p:nvPr/>
      </p:nvGrpSpPr>
      <p:grpSpPr>
        <a:xfrm>
          <a:off x=\"0\" y=\"0\"/>
          <a:ext cx=\"0\" cy=\"0\"/>
          <a:chOff x=\"0\" y=\"0\"/>
          <a:chExt cx=\"0\" cy=\"0\"/>
        </a:xfrm>
      </p:grpSpPr>
      <p:sp>
        <p:nvSpPr>
          <p:cNvPr id=\"2\" name=\"Slide Image Placeholder 1\"/>
          <p:cNvSpPr><a:spLocks noGrp=\"1\" noRot=\"1\" noChangeAspect=\"1\"/></p:cNvSpPr>
          <p:nvPr><p:ph type=\"sldImg\"/></p:nvPr>
        </p:nvSpPr>
        <p:spPr/>
      </p:sp>
      <p:sp>
        <p:nvSpPr>
          <p:cNvPr id=\"3\" name=\"Notes Placeholder 2\"/>
          <p:cNvSpPr><a:spLocks noGrp=\"1\"/></p:cNvSpPr>
          <p:nvPr><p:ph type=\"body\" idx=\"1\"/></p:nvPr>
        </p:nvSpPr>
        <p:spPr/>
        <p:txBody>
          <a:bodyPr/>
          <a:lstStyle/>"

/-- The end of the part, src/parts/notes_slide.rs 117-122. -/
def notesTail : List Part := t!"</p:txBody>
      </p:sp>
    </p:spTree>
  </p:cSld>
  <p:clrMapOvr><a:masterClrMapping/></p:clrMapOvr>
</p:notes>"

/-- `generate_xml`, src/parts/notes_slide.rs 64-125. -/
def NotesPart.generate (p : NotesPart) : Str :=
  xmlDecl ++ fmt (notesHead ++ t!"\n          " ++ p.paragraphs ++ t!"\n        " ++ notesTail)

/-- `to_xml`, src/parts/notes_slide.rs 141-146. -/
def NotesPart.toXml (p : NotesPart) : Str := p.kept.getD p.generate

/-- `from_xml`, src/parts/notes_slide.rs 148-156. -/
def NotesPart.fromXml (x : Str) : NotesPart := { number := 1, kept := some x }

/-- `part_type` and `content_type`, src/parts/notes_slide.rs 133-139. -/
def NotesPart.kind (_ : NotesPart) : PType × CType := (.slide, .xml)

/-! ### Layouts -/

/-- `LayoutType`, src/parts/slide_layout.rs 10-23. -/
inductive LayoutKind where
  | title | titleAndContent | sectionHeader | twoContent | comparison | titleOnly | blank | contentWithCaption | pictureWithCaption | titleAndVerticalText | verticalTitleAndText | custom
deriving DecidableEq

/-- `LayoutType::name`, src/parts/slide_layout.rs 27-42. -/
def LayoutKind.name : LayoutKind → Str
  | .title => c!"Title Slide"
  | .titleAndContent => c!"Title and Content"
  | .sectionHeader => c!"Section Header"
  | .twoContent => c!"Two Content"
  | .comparison => c!"Comparison"
  | .titleOnly => c!"Title Only"
  | .blank => c!"Blank"
  | .contentWithCaption => c!"Content with Caption"
  | .pictureWithCaption => c!"Picture with Caption"
  | .titleAndVerticalText => c!"Title and Vertical Text"
  | .verticalTitleAndText => c!"Vertical Title and Text"
  | .custom => c!"Custom"

/-- `LayoutType::type_value`, src/parts/slide_layout.rs 45-60. -/
def LayoutKind.typeValue : LayoutKind → Str
  | .title => c!"title"
  | .titleAndContent => c!"obj"
  | .sectionHeader => c!"secHead"
  | .twoContent => c!"twoObj"
  | .comparison => c!"twoTxTwoObj"
  | .titleOnly => c!"titleOnly"
  | .blank => c!"blank"
  | .contentWithCaption => c!"objTx"
  | .pictureWithCaption => c!"picTx"
  | .titleAndVerticalText => c!"vertTx"
  | .verticalTitleAndText => c!"vertTitleAndTx"
  | .custom => c!"cust"

/-- `SlideLayoutPart`, src/parts/slide_layout.rs 65-72. -/
structure LayoutPart where
  number : Nat
  type : LayoutKind
  name : Str
  kept : Option Str := none

/-- `SlideLayoutPart::new`, src/parts/slide_layout.rs 76-85. -/
def LayoutPart.new (n : Nat) (k : LayoutKind) : LayoutPart := ⟨n, k, k.name, none⟩

/-- `path`, src/parts/slide_layout.rs 78. -/
def LayoutPart.path (p : LayoutPart) : Str := c!"ppt/slideLayouts/slideLayout" ++ dec p.number ++ c!".xml"

/-- `rel_target`, src/parts/slide_layout.rs 113-115. -/
def LayoutPart.relTarget (p : LayoutPart) : Str := c!"slideLayouts/slideLayout" ++ dec p.number ++ c!".xml"

/-- `generate_xml`, src/parts/slide_layout.rs 117-145. -/
def LayoutPart.generate (p : LayoutPart) : Str := xmlDecl ++ fmt t!"<p:sldLayout xmlns:a=\"http://schemas.openxmlformats.org/drawingml/2006/main\" xmlns:r=\"http://schemas.openxmlformats.org/officeDocument/2006/relationships\" xmlns:p=\"http://schemas.openxmlformats.org/presentationml/2006/main\" type=\"{.raw p.type.typeValue}\" preserve=\"1\">
  <p:cSld name=\"{.raw p.name}\">
    <p:spTree>
      <p:nvGrpSpPr>
        <p:cNvPr id=\"1\" name=\"\"/>
        <p:cNvGrpSpPr/>
        <p:nvPr/>
      </p:nvGrpSpPr>
      <p:grpSpPr>
        <a:xfrm>
          <a:off x=\"0\" y=\"0\"/>
          <a:ext cx=\"0\" cy=\"0\"/>
          <a:chOff x=\"0\" y=\"0\"/>
          <a:chExt cx=\"0\" cy=\"0\"/>
        </a:xfrm>
      </p:grpSpPr>
    </p:spTree>
  </p:cSld>
  <p:clrMapOvr>
    <a:masterClrMapping/>
  </p:clrMapOvr>
</p:sldLayout>"

/-- `to_xml`, src/parts/slide_layout.rs 161-166. -/
def LayoutPart.toXml (p : LayoutPart) : Str := p.kept.getD p.generate

/-- `from_xml`, src/parts/slide_layout.rs 168-177. -/
def LayoutPart.fromXml (x : Str) : LayoutPart := ⟨1, .titleAndContent, c!"Layout", some x⟩

/-! ### Masters -/

/-- `SlideMasterPart`, src/parts/slide_master.rs 10-30; the name and the id of the theme are never written. -/
structure MasterPart where
  number : Nat
  layouts : List Str := []
  kept : Option Str := none

/-- `rel_target`, src/parts/slide_master.rs 63-65. -/
def MasterPart.relTarget (p : MasterPart) : Str := c!"slideMasters/slideMaster" ++ dec p.number ++ c!".xml"

/-- `path`, src/parts/slide_master.rs 23. -/
def MasterPart.path (p : MasterPart) : Str := c!"ppt/slideMasters/slideMaster" ++ dec p.number ++ c!".xml"

/-- One layout, src/parts/slide_master.rs 71-77: the number is the position of the first equal id. -/
def layoutIdXml (l : List Str) (id : Str) : List Part :=
  t!"<p:sldLayoutId id=\"{.num (2147483649 + l.idxOf id)}\" r:id=\"{.raw id}\"/>"

/-- The list of layouts, src/parts/slide_master.rs 68-79 and 115-119. -/
def MasterPart.layoutList (p : MasterPart) : List Part :=
  if p.layouts = [] then [] else t!"\n      " ++ joined t!"\n      " (p.layouts.map (layoutIdXml p.layouts)) ++ t!"\n  "

/-- `generate_xml`, src/parts/slide_master.rs 67-121. -/
def MasterPart.generate (p : MasterPart) : Str :=
  xmlDecl ++ fmt (t!"<p:sldMaster xmlns:a=\"http://schemas.openxmlformats.org/drawingml/2006/main\" xmlns:r=\"http://schemas.openxmlformats.org/officeDocument/2006/relationships\" xmlns:p=\"http://schemas.openxmlformats.org/presentationml/2006/main\">
  <p:cSld>
    <p:bg>
      <p:bgRef idx=\"1001\">
        <a:schemeClr val=\"bg1\"/>
      </p:bgRef>
    </p:bg>
    <p:spTree>
      <p:nvGrpSpPr>
        <p:cNvPr id=\"1\" name=\"\"/>
        <p:cNvGrpSpPr/>
        <p:nvPr/>
      </p:nvGrpSpPr>
      <p:grpSpPr>
        <a:xfrm>
          <a:off x=\"0\" y=\"0\"/>
          <a:ext cx=\"0\" cy=\"0\"/>
          <a:chOff x=\"0\" y=\"0\"/>
          <a:chExt cx=\"0\" cy=\"0\"/>
        </a:xfrm>
      </p:grpSpPr>
    </p:spTree>
  </p:cSld>
  <p:clrMap bg1=\"lt1\" tx1=\"dk1\" bg2=\"lt2\" tx2=\"dk2\" accent1=\"accent1\" accent2=\"accent2\" accent3=\"accent3\" accent4=\"accent4\" accent5=\"accent5\" accent6=\"accent6\" hlink=\"hlink\" folHlink=\"folHlink\"/>
  <p:sldLayoutIdLst>
    " ++ p.layoutList ++ t!"</p:sldLayoutIdLst>
  <p:txStyles>
    <p:titleStyle/>
    <p:bodyStyle/>
    <p:otherStyle/>
  </p:txStyles>
</p:sldMaster>")

/-- `to_xml`, src/parts/slide_master.rs 137-142. -/
def MasterPart.toXml (p : MasterPart) : Str := p.kept.getD p.generate

/-- `from_xml`, src/parts/slide_master.rs 144-153. -/
def MasterPart.fromXml (x : Str) : MasterPart := { number := 1, kept := some x }

/-! ### Media -/

/-- `MediaFormat`, src/parts/media.rs 10-21. -/
inductive MediaFormat where
  | mp4 | webm | avi | wmv | mov | mp3 | wav | wma | m4a | ogg
deriving DecidableEq

/-- `MediaFormat::extension`, src/parts/media.rs 25-38. -/
def MediaFormat.extension : MediaFormat → Str
  | .mp4 => c!"mp4"
  | .webm => c!"webm"
  | .avi => c!"avi"
  | .wmv => c!"wmv"
  | .mov => c!"mov"
  | .mp3 => c!"mp3"
  | .wav => c!"wav"
  | .wma => c!"wma"
  | .m4a => c!"m4a"
  | .ogg => c!"ogg"

/-- `MediaFormat::mime_type`, src/parts/media.rs 41-54. -/
def MediaFormat.mime : MediaFormat → Str
  | .mp4 => c!"video/mp4"
  | .webm => c!"video/webm"
  | .avi => c!"video/x-msvideo"
  | .wmv => c!"video/x-ms-wmv"
  | .mov => c!"video/quicktime"
  | .mp3 => c!"audio/mpeg"
  | .wav => c!"audio/wav"
  | .wma => c!"audio/x-ms-wma"
  | .m4a => c!"audio/mp4"
  | .ogg => c!"audio/ogg"

/-- `MediaFormat::is_video`, src/parts/media.rs 57-66. -/
def MediaFormat.isVideo (f : MediaFormat) : Bool := f = .mp4 || f = .webm || f = .avi || f = .wmv || f = .mov

/-- `MediaFormat::from_extension`, src/parts/media.rs 74-88. -/
def MediaFormat.fromExtension (e : Str) : Option MediaFormat :=
  let e := e.map Char.toLower
  if e = c!"mp4" then some .mp4
  else if e = c!"webm" then some .webm
  else if e = c!"avi" then some .avi
  else if e = c!"wmv" then some .wmv
  else if e = c!"mov" then some .mov
  else if e = c!"mp3" then some .mp3
  else if e = c!"wav" then some .wav
  else if e = c!"wma" then some .wma
  else if e = c!"m4a" then some .m4a
  else if e = c!"ogg" then some .ogg
  else none

/-- `MediaPart`, src/parts/media.rs 93-111. -/
structure MediaPart where
  number : Nat
  format : MediaFormat

/-- `path`, src/parts/media.rs 105. -/
def MediaPart.path (p : MediaPart) : Str := c!"ppt/media/media" ++ dec p.number ++ c!"." ++ p.format.extension

/-- `rel_target`, src/parts/media.rs 163-169. -/
def MediaPart.relTarget (p : MediaPart) : Str := c!"../media/media" ++ dec p.number ++ c!"." ++ p.format.extension

/-- `part_type` and `content_type`, src/parts/media.rs 177-183. -/
def MediaPart.kind (p : MediaPart) : PType × CType := (.image, .image p.format.extension)

/-! ### Images -/

/-- `ImagePart`, src/parts/image.rs 11-37. The format is in lower case. -/
structure ImagePart where
  number : Nat
  format : Str

/-- `ImagePart::new`, src/parts/image.rs 22-37. -/
def ImagePart.new (n : Nat) (format : Str) : ImagePart := ⟨n, format.map Char.toLower⟩

/-- `extension`, src/parts/image.rs 95-100 and 24-27. -/
def ImagePart.extension (p : ImagePart) : Str := if p.format = c!"jpeg" then c!"jpg" else p.format

/-- `path`, src/parts/image.rs 30. -/
def ImagePart.path (p : ImagePart) : Str := c!"ppt/media/image" ++ dec p.number ++ c!"." ++ p.extension

/-- `rel_target`, src/parts/image.rs 103-105. -/
def ImagePart.relTarget (p : ImagePart) : Str := c!"../media/image" ++ dec p.number ++ c!"." ++ p.extension

/-- `mime_type`, src/parts/image.rs 83-92. -/
def ImagePart.mime (p : ImagePart) : Str :=
  if p.format = c!"png" then c!"image/png"
  else if p.format = c!"jpg" ∨ p.format = c!"jpeg" then c!"image/jpeg"
  else if p.format = c!"gif" then c!"image/gif"
  else if p.format = c!"bmp" then c!"image/bmp"
  else if p.format = c!"tiff" ∨ p.format = c!"tif" then c!"image/tiff"
  else c!"application/octet-stream"

/-- `content_type`, src/parts/image.rs 117-119. -/
def ImagePart.contentType (p : ImagePart) : CType := .image p.format

/-! ### Themes -/

/-- `ThemePart`, src/parts/theme.rs 42-50. -/
structure ThemePart where
  number : Nat
  name : Str
  majorFont : Str
  minorFont : Str
  colors : List (Str × Str)
  kept : Option Str := none

/-- `default_colors`, src/parts/theme.rs 66-81. -/
def officeColors : List (Str × Str) := [
  (c!"dk1", c!"000000"),
  (c!"lt1", c!"FFFFFF"),
  (c!"dk2", c!"44546A"),
  (c!"lt2", c!"E7E6E6"),
  (c!"accent1", c!"4472C4"),
  (c!"accent2", c!"ED7D31"),
  (c!"accent3", c!"A5A5A5"),
  (c!"accent4", c!"FFC000"),
  (c!"accent5", c!"5B9BD5"),
  (c!"accent6", c!"70AD47"),
  (c!"hlink", c!"0563C1"),
  (c!"folHlink", c!"954F72")]

/-- `ThemePart::new`, src/parts/theme.rs 54-64. -/
def ThemePart.new (n : Nat) : ThemePart := ⟨n, c!"Office Theme", c!"Calibri Light", c!"Calibri", officeColors, none⟩

/-- Replacing the value of the first entry with a name. -/
def setFirst (n v : Str) : List (Str × Str) → List (Str × Str)
  | [] => [(n, v)]
  | c :: l => if c.1 = n then (c.1, v) :: l else c :: setFirst n v l

/-- `set_color`, src/parts/theme.rs 109-116. -/
def ThemePart.setColor (p : ThemePart) (n v : Str) : ThemePart := { p with colors := setFirst n v p.colors }

/-- One colour, src/parts/theme.rs 128-131. -/
def colorXml (c : Str × Str) : List Part :=
  t!"<a:" ++ [.lit c.1] ++ t!" val=\"" ++ [.lit c.1] ++ t!"\"><a:srgbClr val=\"{.raw c.2}\"/></a:" ++ [.lit c.1] ++ t!">"

/-- The styles, src/parts/theme.rs 155-177. -/
def formatScheme : List Part := t!"<a:fmtScheme name=\"Office\">
      <a:fillStyleLst>
        <a:solidFill><a:schemeClr val=\"phClr\"/></a:solidFill>
        <a:gradFill rotWithShape=\"1\"><a:gsLst><a:gs pos=\"0\"><a:schemeClr val=\"phClr\"><a:tint val=\"50000\"/><a:satMod val=\"300000\"/></a:schemeClr></a:gs><a:gs pos=\"35000\"><a:schemeClr val=\"phClr\"><a:tint val=\"37000\"/><a:satMod val=\"300000\"/></a:schemeClr></a:gs><a:gs pos=\"100000\"><a:schemeClr val=\"phClr\"><a:tint val=\"15000\"/><a:satMod val=\"350000\"/></a:schemeClr></a:gs></a:gsLst><a:lin ang=\"16200000\" scaled=\"1\"/></a:gradFill>
        <a:gradFill rotWithShape=\"1\"><a:gsLst><a:gs pos=\"0\"><a:schemeClr val=\"phClr\"><a:shade val=\"51000\"/><a:satMod val=\"130000\"/></a:schemeClr></a:gs><a:gs pos=\"80000\"><a:schemeClr val=\"phClr\"><a:shade val=\"93000\"/><a:satMod val=\"130000\"/></a:schemeClr></a:gs><a:gs pos=\"100000\"><a:schemeClr val=\"phClr\"><a:shade val=\"94000\"/><a:satMod val=\"135000\"/></a:schemeClr></a:gs></a:gsLst><a:lin ang=\"16200000\" scaled=\"0\"/></a:gradFill>
      </a:fillStyleLst>
      <a:lnStyleLst>
        <a:ln w=\"6350\" cap=\"flat\" cmpd=\"sng\" algn=\"ctr\"><a:solidFill><a:schemeClr val=\"phClr\"/></a:solidFill><a:prstDash val=\"solid\"/><a:miter lim=\"800000\"/></a:ln>
        <a:ln w=\"12700\" cap=\"flat\" cmpd=\"sng\" algn=\"ctr\"><a:solidFill><a:schemeClr val=\"phClr\"/></a:solidFill><a:prstDash val=\"solid\"/><a:miter lim=\"800000\"/></a:ln>
        <a:ln w=\"19050\" cap=\"flat\" cmpd=\"sng\" algn=\"ctr\"><a:solidFill><a:schemeClr val=\"phClr\"/></a:solidFill><a:prstDash val=\"solid\"/><a:miter lim=\"800000\"/></a:ln>
      </a:lnStyleLst>
      <a:effectStyleLst>
        <a:effectStyle><a:effectLst/></a:effectStyle>
        <a:effectStyle><a:effectLst/></a:effectStyle>
        <a:effectStyle><a:effectLst><a:outerShdw blurRad=\"57150\" dist=\"19050\" dir=\"5400000\" algn=\"ctr\" rotWithShape=\"0\"><a:srgbClr val=\"000000\"><a:alpha val=\"63000\"/></a:srgbClr></a:outerShdw></a:effectLst></a:effectStyle>
      </a:effectStyleLst>
      <a:bgFillStyleLst>
        <a:solidFill><a:schemeClr val=\"phClr\"/></a:solidFill>
        <a:solidFill><a:schemeClr val=\"phClr\"><a:tint val=\"95000\"/><a:satMod val=\"170000\"/></a:schemeClr></a:solidFill>
        <a:gradFill rotWithShape=\"1\"><a:gsLst><a:gs pos=\"0\"><a:schemeClr val=\"phClr\"><a:tint val=\"93000\"/><a:satMod val=\"150000\"/><a:shade val=\"98000\"/><a:lumMod val=\"102000\"/></a:schemeClr></a:gs><a:gs pos=\"50000\"><a:schemeClr val=\"phClr\"><a:tint val=\"98000\"/><a:satMod val=\"130000\"/><a:shade val=\"90000\"/><a:lumMod val=\"103000\"/></a:schemeClr></a:gs><a:gs pos=\"100000\"><a:schemeClr val=\"phClr\"><a:shade val=\"63000\"/><a:satMod val=\"120000\"/></a:schemeClr></a:gs></a:gsLst><a:lin ang=\"5400000\" scaled=\"0\"/></a:gradFill>
      </a:bgFillStyleLst>
    </a:fmtScheme>"

/-- The end of the part, src/parts/theme.rs 142-180. -/
def ThemePart.tail (p : ThemePart) : List Part := (t!"
    </a:clrScheme>
    <a:fontScheme name=\"Office\">
      <a:majorFont>
        <a:latin typeface=\"{.raw p.majorFont}\"/>
        <a:ea typeface=\"\"/>
        <a:cs typeface=\"\"/>
      </a:majorFont>
      <a:minorFont>
        <a:latin typeface=\"{.raw p.minorFont}\"/>
        <a:ea typeface=\"\"/>
        <a:cs typeface=\"\"/>
      </a:minorFont>
    </a:fontScheme>
    ") ++ formatScheme ++ t!"
  </a:themeElements>
  <a:objectDefaults/>
  <a:extraClrSchemeLst/>
</a:theme>"

/-- `generate_xml`, src/parts/theme.rs 123-183. -/
def ThemePart.generate (p : ThemePart) : Str :=
  xmlDecl ++ fmt (t!"<a:theme xmlns:a=\"http://schemas.openxmlformats.org/drawingml/2006/main\" name=\"{.raw p.name}\">
  <a:themeElements>
    <a:clrScheme name=\"Office\">" ++ (t!"\n      " ++ joined t!"\n        " (p.colors.map colorXml)) ++ p.tail)

/-- `to_xml`, src/parts/theme.rs 199-204. -/
def ThemePart.toXml (p : ThemePart) : Str := p.kept.getD p.generate

/-- `from_xml`, src/parts/theme.rs 206-216. -/
def ThemePart.fromXml (x : Str) : ThemePart := { ThemePart.new 1 with kept := some x }

/-- `path`, src/parts/theme.rs 56. -/
def ThemePart.path (p : ThemePart) : Str := c!"ppt/theme/theme" ++ dec p.number ++ c!".xml"

/-- `rel_target`, src/parts/theme.rs 119-121. -/
def ThemePart.relTarget (p : ThemePart) : Str := c!"../theme/theme" ++ dec p.number ++ c!".xml"

end PptRs.PartDocs
