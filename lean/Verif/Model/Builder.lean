import Verif.Model.Rels
import Verif.Model.Xml
import Verif.Model.MediaRegistry

/-!
# The package builder

`write_package_files` and `write_package_files_lazy` decide which parts a deck consists of, how
they are numbered and how they refer to each other. The model keeps exactly that: every archive
entry is a part name and a body; bodies keep ids, references, relationship lists and content type
lists. Text, geometry and formatting inside the XML parts are left out.
-/

namespace PptRs

/-- src/generator/slide_content/layout.rs 4-20. -/
inductive SlideLayout where
  | centeredTitle | titleAndContent | twoColumn | sectionHeader | blank | titleOnly
  | titleAndBigContent
deriving DecidableEq, Repr

/-- src/generator/slide_content/layout.rs 24-34. -/
def SlideLayout.layoutNumber : SlideLayout → Nat
  | .centeredTitle => 1
  | .titleAndContent => 2
  | .twoColumn => 3
  | .sectionHeader => 4
  | .blank => 5
  | .titleOnly => 6
  | .titleAndBigContent => 7

/-- An image: the bytes `get_bytes` returns (`none` for a missing file, undecodable base64 or no
source) and its `extension` (src/generator/images.rs 192-273). `get_bytes` is called several
times during one write; the model assumes it returns the same each time. -/
structure ImageIn where
  bytes : Option (List UInt8)
  ext : Str
deriving DecidableEq, Repr

/-- src/generator/hyperlinks.rs 9-28. -/
inductive HyperlinkAction where
  | url (url : Str)
  | slide (n : Nat)
  | firstSlide | lastSlide | nextSlide | previousSlide | endShow
  | email (address : Str) (subject : Option Str)
  | file (path : Str)
deriving DecidableEq, Repr

/-- src/generator/hyperlinks.rs 63-81. -/
def HyperlinkAction.relationshipTarget : HyperlinkAction → Str
  | .url u => u
  | .slide n => c!"slide" ++ dec n ++ c!".xml"
  | .firstSlide => c!"ppaction://hlinkshowjump?jump=firstslide"
  | .lastSlide => c!"ppaction://hlinkshowjump?jump=lastslide"
  | .nextSlide => c!"ppaction://hlinkshowjump?jump=nextslide"
  | .previousSlide => c!"ppaction://hlinkshowjump?jump=previousslide"
  | .endShow => c!"ppaction://hlinkshowjump?jump=endshow"
  | .email a none => c!"mailto:" ++ a
  | .email a (some s) => c!"mailto:" ++ a ++ c!"?subject=" ++ s
  | .file p => c!"file:///" ++ replaceChar '\\' c!"/" p

/-- src/generator/hyperlinks.rs 84-89. -/
def HyperlinkAction.isExternal : HyperlinkAction → Bool
  | .url _ => true
  | .email _ _ => true
  | .file _ => true
  | _ => false

/-- A shape's hyperlink: its action and the relationship id if the caller set one
(src/generator/hyperlinks.rs 106-115, without the tooltip and the highlight flag). -/
structure LinkIn where
  action : HyperlinkAction
  rId : Option Str
deriving DecidableEq, Repr

/-- A shape: the id chosen by the caller and its hyperlink. -/
structure ShapeIn where
  id : Option Nat
  link : Option LinkIn
deriving DecidableEq, Repr

/-- The parts of `SlideContent` (src/generator/slide_content/content.rs 18-57) that the package
structure depends on. Charts, code blocks and connectors are counted. -/
structure SlideIn where
  title : Str
  layout : SlideLayout
  bullets : Nat
  hasTable : Bool
  shapes : List ShapeIn
  images : List ImageIn
  notes : Option Str
  codeBlocks : Nat
  connectors : Nat
  charts : Nat
  ink : Bool
deriving DecidableEq, Repr

/-- src/generator/slide_content/embedded_fonts.rs 9-14. -/
inductive FontStyle where
  | regular | bold | italic | boldItalic
deriving DecidableEq, Repr

/-- src/generator/slide_content/embedded_fonts.rs 17-24. -/
def FontStyle.xmlElement : FontStyle → Str
  | .regular => c!"regular"
  | .bold => c!"bold"
  | .italic => c!"italic"
  | .boldItalic => c!"boldItalic"

/-- src/generator/slide_content/embedded_fonts.rs 78-86, without the descriptor fields. -/
structure EmbeddedFont where
  typeface : Str
  style : FontStyle
  relationshipId : Str
deriving DecidableEq, Repr

/-- The part name without folder: `{typeface without spaces}-{style}.fntdata`
(src/generator/slide_content/embedded_fonts.rs 128-143). -/
def EmbeddedFont.fileName (f : EmbeddedFont) : Str :=
  replaceChar ' ' [] f.typeface ++ c!"-" ++ f.style.xmlElement ++ c!".fntdata"

/-- The loop of `assign_relationship_ids` from index `i` on. -/
def assignFontIdsFrom (start : Nat) : Nat → List EmbeddedFont → List EmbeddedFont
  | _, [] => []
  | i, f :: fs =>
    (if f.relationshipId = [] then { f with relationshipId := c!"rId" ++ dec (start + i) } else f) ::
      assignFontIdsFrom start (i + 1) fs

/-- src/generator/slide_content/embedded_fonts.rs 178-184. -/
def assignFontIds (fonts : List EmbeddedFont) (start : Nat) : List EmbeddedFont :=
  assignFontIdsFrom start 0 fonts

/-- Presentation settings that add or remove parts: embedded fonts, a digital signature,
handout printing, a custom theme and the part paths of a template deck
(src/generator/slide_content/presentation_settings.rs). -/
structure BuildSettings where
  fonts : Option (List EmbeddedFont)
  signature : Bool
  handout : Bool
  theme : Bool
  template : Option (List Str)
deriving DecidableEq, Repr

/-- No settings. -/
def BuildSettings.none : BuildSettings := ⟨.none, false, false, false, .none⟩

/-! ## Part names -/

/-- The parts the builder writes. -/
inductive PartName where
  | contentTypes | rootRels | presRels | presentation | presProps | viewProps | tableStyles
  | handoutMaster | handoutRels | notesMaster | notesMasterRels | master | masterRels
  | core | app | sigOrigin | sig
  | theme (n : Nat)
  | layout (n : Nat)
  | layoutRels (n : Nat)
  | slide (n : Nat)
  | slideRels (n : Nat)
  | notes (n : Nat)
  | notesRels (n : Nat)
  | chart (n : Nat)
  | chartRels (n : Nat)
  | embedding (n : Nat)
  | ink (n : Nat)
  | media (n : Nat) (ext : Str)
  | font (file : Str)
  | templatePart (path : Str)
deriving DecidableEq, Repr

/-- The archive name of a part. src/generator/builder.rs 103-108, 364-376 (slides, notes),
537-621 (package level), 635-684 (theme and layouts), 701-706, 1012-1022 (charts), 1058, 1140,
1336 and 1351 (fonts, images), 1370-1373 (signature);
src/generator/charts/embedding.rs 4-6. -/
def PartName.path : PartName → Str
  | .contentTypes => c!"[Content_Types].xml"
  | .rootRels => c!"_rels/.rels"
  | .presRels => c!"ppt/_rels/presentation.xml.rels"
  | .presentation => c!"ppt/presentation.xml"
  | .presProps => c!"ppt/presProps.xml"
  | .viewProps => c!"ppt/viewProps.xml"
  | .tableStyles => c!"ppt/tableStyles.xml"
  | .handoutMaster => c!"ppt/handoutMasters/handoutMaster1.xml"
  | .handoutRels => c!"ppt/handoutMasters/_rels/handoutMaster1.xml.rels"
  | .notesMaster => c!"ppt/notesMasters/notesMaster1.xml"
  | .notesMasterRels => c!"ppt/notesMasters/_rels/notesMaster1.xml.rels"
  | .master => c!"ppt/slideMasters/slideMaster1.xml"
  | .masterRels => c!"ppt/slideMasters/_rels/slideMaster1.xml.rels"
  | .core => c!"docProps/core.xml"
  | .app => c!"docProps/app.xml"
  | .sigOrigin => c!"_xmlsignatures/origin.sigs"
  | .sig => c!"_xmlsignatures/sig1.xml"
  | .theme n => c!"ppt/theme/theme" ++ dec n ++ c!".xml"
  | .layout n => c!"ppt/slideLayouts/slideLayout" ++ dec n ++ c!".xml"
  | .layoutRels n => c!"ppt/slideLayouts/_rels/slideLayout" ++ dec n ++ c!".xml.rels"
  | .slide n => c!"ppt/slides/slide" ++ dec n ++ c!".xml"
  | .slideRels n => c!"ppt/slides/_rels/slide" ++ dec n ++ c!".xml.rels"
  | .notes n => c!"ppt/notesSlides/notesSlide" ++ dec n ++ c!".xml"
  | .notesRels n => c!"ppt/notesSlides/_rels/notesSlide" ++ dec n ++ c!".xml.rels"
  | .chart n => c!"ppt/charts/chart" ++ dec n ++ c!".xml"
  | .chartRels n => c!"ppt/charts/_rels/chart" ++ dec n ++ c!".xml.rels"
  | .embedding n => c!"ppt/embeddings/Microsoft_Excel_Sheet" ++ dec n ++ c!".xlsx"
  | .ink n => c!"ppt/ink/ink" ++ dec n ++ c!".xml"
  | .media n ext => c!"ppt/media/image" ++ dec n ++ c!"." ++ ext
  | .font file => c!"ppt/fonts/" ++ file
  | .templatePart path => path

/-! ## Content types -/

/-- The content types used by the builder (the long MIME strings are not spelled out). -/
inductive ContentType where
  | rels | xml | jpeg | png | gif | xlsx | presentation | slide | notesSlide | notesMaster | theme
  | handoutMaster | chart | slideLayout | slideMaster | tableStyles | viewProps | presProps
  | coreProps | appProps | sigOrigin | sigXml | fontData | ink
deriving DecidableEq, Repr

/-- `[Content_Types].xml` while it is written: `Default` entries by extension, `Override` entries
by part name, and whether the text already contains `</Types>`. -/
structure ContentTypes where
  defaults : List (Str × ContentType)
  overrides : List (Str × ContentType)
  closed : Bool
deriving DecidableEq, Repr

/-- src/generator/package_xml.rs 28-49. -/
def imageDefaults (exts : List Str) : List (Str × ContentType) :=
  (if exts.any (fun e => e = c!"jpg" ∨ e = c!"jpeg") then [(c!"jpg", .jpeg)] else []) ++
  (if exts.any (fun e => e = c!"png") then [(c!"png", .png)] else []) ++
  (if exts.any (fun e => e = c!"gif") then [(c!"gif", .gif)] else [])

/-- The part name in an `Override` entry: the archive name with a leading slash. -/
def overrideOf (p : PartName) (t : ContentType) : Str × ContentType := ('/' :: p.path, t)

/-- `1..=n`. -/
def upTo (n : Nat) : List Nat := (List.range n).map (· + 1)

/-- src/generator/layout_parts.rs 8. -/
def standardLayoutCount : Nat := 7

/-- src/generator/package_xml.rs 51-70. -/
def contentTypesOpening (exts : List Str) (chartCount : Nat) : ContentTypes where
  defaults := imageDefaults exts ++ [(c!"rels", .rels), (c!"xml", .xml)] ++
    (if chartCount > 0 then [(c!"xlsx", .xlsx)] else [])
  overrides := [overrideOf .presentation .presentation]
  closed := false

/-- src/generator/package_xml.rs 72-80. -/
def contentTypesFooter : List (Str × ContentType) :=
  [overrideOf .master .slideMaster, overrideOf (.theme 1) .theme,
    overrideOf .tableStyles .tableStyles, overrideOf .viewProps .viewProps,
    overrideOf .presProps .presProps, overrideOf .core .coreProps, overrideOf .app .appProps]

/-- src/generator/layout_parts.rs 165-171. -/
def layoutOverrides : List (Str × ContentType) :=
  (upTo standardLayoutCount).map fun i => overrideOf (.layout i) .slideLayout

/-- src/generator/package_xml.rs 423-430. -/
def chartOverrides (chartCount : Nat) : List (Str × ContentType) :=
  (upTo chartCount).flatMap fun i => [overrideOf (.chart i) .chart, overrideOf (.embedding i) .xlsx]

/-- src/generator/package_xml.rs 402-416. -/
def notesOverrides (notesCount : Nat) : List (Str × ContentType) :=
  (upTo notesCount).map (fun i => overrideOf (.notes i) .notesSlide) ++
    (if notesCount > 0 then [overrideOf .notesMaster .notesMaster, overrideOf (.theme 2) .theme]
     else [])

/-- src/generator/package_xml.rs 418-421. -/
def handoutOverrides (hasHandout : Bool) : List (Str × ContentType) :=
  if hasHandout then [overrideOf .handoutMaster .handoutMaster, overrideOf (.theme 3) .theme] else []

/-- src/generator/package_xml.rs 388-435. -/
def createContentTypes (slides notesCount chartCount : Nat) (hasHandout : Bool) (exts : List Str) :
    ContentTypes where
  defaults := (contentTypesOpening exts chartCount).defaults
  overrides := (contentTypesOpening exts chartCount).overrides ++
    (upTo slides).map (fun i => overrideOf (.slide i) .slide) ++
    notesOverrides notesCount ++ handoutOverrides hasHandout ++ chartOverrides chartCount ++
    layoutOverrides ++ contentTypesFooter
  closed := true

/-- src/generator/package_xml.rs 439-446: inserted before `</Types>` if that is there. -/
def appendSignatureTypes (ct : ContentTypes) : ContentTypes :=
  if ct.closed then
    { ct with
      defaults := ct.defaults ++ [(c!"sigs", .sigOrigin)]
      overrides := ct.overrides ++ [overrideOf .sig .sigXml] }
  else ct

/-- src/generator/package_xml.rs 450-457. -/
def appendFontTypes (ct : ContentTypes) : ContentTypes :=
  if ct.closed then { ct with defaults := ct.defaults ++ [(c!"fntdata", .fontData)] } else ct

/-- src/generator/package_xml.rs 461-474. -/
def appendInkTypes (ct : ContentTypes) (inkCount : Nat) : ContentTypes :=
  if ct.closed then
    { ct with overrides := ct.overrides ++ (upTo inkCount).map fun i => overrideOf (.ink i) .ink }
  else ct

/-! ## Relationship parts -/

/-- A relationship with a standard type and an internal target. -/
def rel (id : Nat) (type : Str) (target : Str) : RelEntry :=
  ⟨c!"rId" ++ dec id, relTypeBase ++ type, target, false⟩

/-- src/generator/package_xml.rs 104-106. -/
def slideRelId (slideNum : Nat) : Nat := slideNum + 1

/-- src/generator/package_xml.rs 109-111. -/
def notesMasterRelId (slides : Nat) : Nat := slides + 2

/-- src/generator/package_xml.rs 114-116. -/
def handoutMasterRelId (slides : Nat) (hasNotes : Bool) : Nat := slides + 2 + hasNotes.toNat

/-- src/generator/package_xml.rs 119-121. -/
def presPropsRelId (slides : Nat) (hasNotes hasHandout : Bool) : Nat :=
  slides + 2 + hasNotes.toNat + hasHandout.toNat

/-- src/generator/package_xml.rs 124-126. -/
def viewPropsRelId (slides : Nat) (hasNotes hasHandout : Bool) : Nat :=
  presPropsRelId slides hasNotes hasHandout + 1

/-- src/generator/package_xml.rs 129-131. -/
def themeRelId (slides : Nat) (hasNotes hasHandout : Bool) : Nat :=
  presPropsRelId slides hasNotes hasHandout + 2

/-- src/generator/package_xml.rs 134-136. -/
def tableStylesRelId (slides : Nat) (hasNotes hasHandout : Bool) : Nat :=
  presPropsRelId slides hasNotes hasHandout + 3

/-- src/generator/package_xml.rs 139-141. -/
def slideIdValue (slideNum : Nat) : Nat := 255 + slideNum

/-- src/generator/package_xml.rs 192-243. -/
def presentationRels (slides : Nat) (hasNotes hasHandout : Bool) : List RelEntry :=
  [rel 1 c!"slideMaster" c!"slideMasters/slideMaster1.xml"] ++
  (upTo slides).map (fun i => rel (slideRelId i) c!"slide" (c!"slides/slide" ++ dec i ++ c!".xml")) ++
  (if hasNotes then [rel (notesMasterRelId slides) c!"notesMaster" c!"notesMasters/notesMaster1.xml"]
   else []) ++
  (if hasHandout then [rel (handoutMasterRelId slides hasNotes) c!"handoutMaster"
    c!"handoutMasters/handoutMaster1.xml"] else []) ++
  [rel (presPropsRelId slides hasNotes hasHandout) c!"presProps" c!"presProps.xml",
   rel (viewPropsRelId slides hasNotes hasHandout) c!"viewProps" c!"viewProps.xml",
   rel (themeRelId slides hasNotes hasHandout) c!"theme" c!"theme/theme1.xml",
   rel (tableStylesRelId slides hasNotes hasHandout) c!"tableStyles" c!"tableStyles.xml"]

/-- One font relationship, src/generator/package_xml.rs 254-264. As in all relationship entries
of the model the target is the attribute text as written, here escaped. -/
def fontRel (f : EmbeddedFont) : RelEntry :=
  ⟨f.relationshipId, relTypeBase ++ c!"font", escapeXml (c!"fonts/" ++ f.fileName), false⟩

/-- src/generator/package_xml.rs 246-267. -/
def presentationRelsWithFonts (slides : Nat) (hasNotes hasHandout : Bool)
    (fonts : List EmbeddedFont) : List RelEntry :=
  presentationRels slides hasNotes hasHandout ++ fonts.map fontRel

/-- src/generator/package_xml.rs 153-179. -/
def rootRels (signature : Bool) : List RelEntry :=
  [rel 1 c!"officeDocument" c!"ppt/presentation.xml",
   ⟨c!"rId2", c!"http://schemas.openxmlformats.org/package/2006/relationships/metadata/core-properties",
     c!"docProps/core.xml", false⟩,
   rel 3 c!"extended-properties" c!"docProps/app.xml"] ++
  (if signature then
    [⟨c!"rId4", c!"http://schemas.openxmlformats.org/package/2006/relationships/digital-signature/origin",
      c!"_xmlsignatures/origin.sigs", false⟩] else [])

/-- src/generator/layout_parts.rs 173-178. -/
def layoutRelTarget (n : Nat) : Str := c!"../slideLayouts/slideLayout" ++ dec n ++ c!".xml"

/-- src/generator/layout_parts.rs 147-163. -/
def masterRels (layoutCount : Nat) : List RelEntry :=
  (upTo layoutCount).map (fun i => rel i c!"slideLayout" (layoutRelTarget i)) ++
  [rel (layoutCount + 1) c!"theme" c!"../theme/theme1.xml"]

/-- src/generator/package_cache.rs 9-12. -/
def layoutRels : List RelEntry := [rel 1 c!"slideMaster" c!"../slideMasters/slideMaster1.xml"]

/-- src/generator/notes_xml.rs 100-106. -/
def notesRels (slideNum : Nat) : List RelEntry :=
  [rel 1 c!"slide" (c!"../slides/slide" ++ dec slideNum ++ c!".xml"),
   rel 2 c!"notesMaster" c!"../notesMasters/notesMaster1.xml"]

/-- src/generator/notes_xml.rs 242-247. -/
def notesMasterRels : List RelEntry := [rel 1 c!"theme" c!"../theme/theme2.xml"]

/-- src/generator/package_xml.rs 477-482. -/
def handoutMasterRels : List RelEntry := [rel 1 c!"theme" c!"../theme/theme3.xml"]

/-- src/generator/charts/embedding.rs 9-16. -/
def chartRels (n : Nat) : List RelEntry :=
  [rel 1 c!"package" (c!"../embeddings/Microsoft_Excel_Sheet" ++ dec n ++ c!".xlsx")]

/-- The image relationships of `create_slide_rels_xml_with_images` from index `i` on
(src/generator/package_xml.rs 551-559). -/
def imageRelsFrom (first : Nat) : Nat → List (Nat × Str) → List RelEntry
  | _, [] => []
  | i, (num, ext) :: l =>
    rel (first + i) c!"image" (c!"../media/image" ++ dec num ++ c!"." ++ ext) :: imageRelsFrom first (i + 1) l

/-- src/generator/package_xml.rs 520-584. -/
def slideRelsWithImages (layoutNumber : Nat) (hasNotes : Bool) (notesPart : Nat)
    (chartRels : List (Nat × Str)) (images : List (Nat × Str)) (links : List RelEntry)
    (ink : Option (Nat × Nat)) : List RelEntry :=
  let nextRid := 2 + hasNotes.toNat
  [rel 1 c!"slideLayout" (layoutRelTarget layoutNumber)] ++
  (if hasNotes then [rel 2 c!"notesSlide" (c!"../notesSlides/notesSlide" ++ dec notesPart ++ c!".xml")]
   else []) ++
  imageRelsFrom nextRid 0 images ++
  chartRels.map (fun c => rel c.1 c!"chart" c.2) ++
  (ink.toList.map fun x => rel x.1 c!"ink" (c!"../ink/ink" ++ dec x.2 ++ c!".xml")) ++
  links

/-- src/generator/builder.rs 89-101, src/generator/hyperlinks.rs 204-218. -/
def hyperlinkRels (s : SlideIn) : List RelEntry :=
  (s.shapes.filterMap (·.link)).filterMap fun h =>
    h.rId.map fun rid => ⟨rid, relTypeBase ++ c!"hyperlink",
      escapeXml h.action.relationshipTarget, h.action.isExternal⟩

/-! ## XML parts with ids and references -/

/-- What `ppt/presentation.xml` refers to. -/
structure PresXml where
  /-- `sldMasterId`: id and relationship. -/
  masters : List (Nat × Str)
  /-- `notesMasterId` relationship. -/
  notesMaster : Option Str
  /-- `handoutMasterId` relationship. -/
  handoutMaster : Option Str
  /-- `sldId`: id and relationship. -/
  slides : List (Nat × Str)
  /-- `embeddedFont`: style and relationship of each variant. -/
  fonts : List (FontStyle × Str)
deriving DecidableEq, Repr

/-- src/generator/package_xml.rs 12: `0x80000000`. -/
def slideMasterId : Nat := 2147483648

/-- The variants in the order they are written: grouped by typeface in order of first
appearance (src/generator/slide_content/embedded_fonts.rs 205-244). -/
def fontGroups (fonts : List EmbeddedFont) : List (FontStyle × Str) :=
  let seen := fonts.foldl (fun seen f => if seen.contains f.typeface then seen else seen ++ [f.typeface]) []
  seen.flatMap fun t => (fonts.filter fun f => f.typeface = t).map fun f => (f.style, f.relationshipId)

/-- src/generator/package_xml.rs 313-385. -/
def presentationXml (slides : Nat) (hasNotes hasHandout : Bool) (fonts : List EmbeddedFont) :
    PresXml where
  masters := [(slideMasterId, c!"rId1")]
  notesMaster := if hasNotes then some (c!"rId" ++ dec (notesMasterRelId slides)) else none
  handoutMaster := if hasHandout then some (c!"rId" ++ dec (handoutMasterRelId slides hasNotes)) else none
  slides := (upTo slides).map fun i => (slideIdValue i, c!"rId" ++ dec (slideRelId i))
  fonts := fontGroups fonts

/-- The layout ids in the slide master (src/generator/theme_xml.rs 30-39). -/
def masterLayoutIds : List Nat := (List.range standardLayoutCount).map (slideMasterId + 1 + ·)

/-- The id of the notes master (src/generator/package_xml.rs 16; not written to the slide list). -/
def notesMasterId : Nat := slideMasterId + 1 + standardLayoutCount

/-- What a slide part refers to. -/
structure SlideXml where
  /-- drawing ids (`cNvPr id`), in document order -/
  drawingIds : List Nat
  /-- `r:embed` of each picture -/
  imageRefs : List Str
  /-- `r:id` of each chart frame -/
  chartRefs : List Str
  /-- `r:id` of the ink part -/
  inkRef : Option Str
  /-- `r:id` of each shape's hyperlink -/
  linkRefs : List Str
deriving DecidableEq, Repr

/-- `List.range n` shifted: `n` consecutive ids. -/
def consecutive (start n : Nat) : List Nat := (List.range n).map (start + ·)

/-- The ids given to shapes, from index `i` on (src/generator/slide_xml/content.rs 24-28). -/
def shapeIdsFrom : Nat → List ShapeIn → List Nat
  | _, [] => []
  | i, s :: ss => s.id.getD (i + 10) :: shapeIdsFrom (i + 1) ss

/-- The placeholder ids of each layout: 1 is the shape tree itself, 2 the title, 3 and 4 the
content (src/generator/slide_xml/common.rs 16, 67; layouts.rs 60-540). -/
def placeholderIds (s : SlideIn) : List Nat :=
  match s.layout with
  | .blank => [1]
  | .titleOnly => [1, 2]
  | .sectionHeader => [1, 2]
  | .centeredTitle => [1, 2]
  | .titleAndBigContent => [1, 2] ++ (if s.bullets > 0 then [3] else [])
  | .twoColumn => [1, 2] ++ (if s.bullets > 0 then [3] ++
      (if (s.bullets + 1) / 2 < s.bullets then [4] else []) else [])
  | .titleAndContent => [1, 2] ++ (if s.hasTable then [3] else if s.bullets > 0 then [3] else [])

/-- src/generator/slide_xml/content.rs 7-88, drawing ids only. `chartRids` is the number of chart
relationship ids passed in. The ink reference has no drawing id. -/
def drawingIds (s : SlideIn) (chartRids : Nat) : List Nat :=
  placeholderIds s ++ shapeIdsFrom 0 s.shapes ++
  consecutive (20 + s.shapes.length) s.images.length ++
  consecutive (30 + s.shapes.length + s.images.length) s.codeBlocks ++
  consecutive (50 + s.shapes.length + s.images.length + s.codeBlocks) s.connectors ++
  consecutive (100 + s.shapes.length + s.images.length + s.codeBlocks + s.connectors)
    (min s.charts chartRids)

/-- src/generator/slide_xml/mod.rs 79-106 with content.rs 7-88: the references of a slide part.
Hyperlinks without a relationship id are not written (src/generator/shapes_xml.rs 27-35). -/
def slideXml (s : SlideIn) (chartRids : List Str) (inkRel : Option Str) : SlideXml where
  drawingIds := drawingIds s chartRids.length
  imageRefs := (consecutive (2 + s.notes.isSome.toNat) s.images.length).map fun n => c!"rId" ++ dec n
  chartRefs := chartRids.take s.charts
  inkRef := if s.ink then inkRel else none
  linkRefs := (s.shapes.filterMap (·.link)).filterMap (·.rId)

/-! ## Archive entries -/

/-- The body of a part, as far as the model keeps it. -/
inductive Body where
  | contentTypes (ct : ContentTypes)
  | rels (l : List RelEntry)
  | presentation (p : PresXml)
  | slide (s : SlideXml)
  | notes (slideNum : Nat) (text : Str)
  | media (bytes : List UInt8)
  | other
deriving DecidableEq, Repr

/-- One archive entry. -/
structure Entry where
  name : PartName
  body : Body
deriving DecidableEq, Repr

/-- A deck: `create_pptx` with a slide count, or slides with content. -/
inductive Deck where
  | plain (slides : Nat)
  | custom (slides : List SlideIn)
deriving DecidableEq, Repr

/-- The slide count passed to `write_package_files`. -/
def Deck.count : Deck → Nat
  | .plain n => n
  | .custom l => l.length

/-- `custom_slides`, empty for a plain deck. -/
def Deck.slides : Deck → List SlideIn
  | .plain _ => []
  | .custom l => l

/-- src/generator/builder.rs 721-723. -/
def hasNotes (slides : List SlideIn) : Bool := slides.any (·.notes.isSome)

/-- src/generator/builder.rs 782-784. -/
def notesCount (slides : List SlideIn) : Nat := (slides.filter (·.notes.isSome)).length

/-- src/generator/builder.rs 532-534. -/
def inkCount (slides : List SlideIn) : Nat := (slides.filter (·.ink)).length

/-- The body of the loop of `build_media_registry` (src/generator/builder.rs 53-55). -/
def registerImage (r : MediaRegistry) (i : ImageIn) : MediaRegistry :=
  match i.bytes with
  | some b => (r.imageNumber b i.ext).1
  | none => r

/-- src/generator/builder.rs 49-59. -/
def buildMediaRegistry (slides : List SlideIn) : MediaRegistry :=
  slides.foldl (fun r s => s.images.foldl registerImage r) .empty

/-- src/generator/builder.rs 75-84. -/
def slideImageRelTargets (s : SlideIn) (r : MediaRegistry) : List (Nat × Str) :=
  s.images.filterMap fun i =>
    i.bytes.bind fun b => (r.lookupNumber b i.ext).map fun n => (n, i.ext)

/-- src/generator/builder.rs 45-47. -/
def slideContentRelStart (hasNotes : Bool) (imageCount : Nat) : Nat := 2 + hasNotes.toNat + imageCount

/-- src/generator/builder.rs 386-403: the first chart number of each slide, counting on from
`total`. -/
def chartStarts : Nat → List SlideIn → List Nat
  | _, [] => []
  | total, s :: ss => (total + 1) :: chartStarts (total + s.charts) ss

/-- `total_charts` of src/generator/builder.rs 386-403. -/
def totalCharts (slides : List SlideIn) : Nat := slides.foldl (fun t s => t + s.charts) 0

/-- src/generator/builder.rs 503-540. -/
def contentTypesPart (d : Deck) (st : BuildSettings) : ContentTypes :=
  let exts := (buildMediaRegistry d.slides).extensions
  let ct := createContentTypes d.count (notesCount d.slides) (totalCharts d.slides) st.handout exts
  let ct := if st.signature then appendSignatureTypes ct else ct
  let ct := if (st.fonts.getD []).isEmpty then ct else appendFontTypes ct
  appendInkTypes ct (inkCount d.slides)

/-- src/generator/builder.rs 453-459. -/
def prepareFonts (st : BuildSettings) (slides : Nat) (hasNotes : Bool) : Option (List EmbeddedFont) :=
  st.fonts.map fun f => assignFontIds f (tableStylesRelId slides hasNotes st.handout + 1)

/-- src/generator/builder.rs 563-580. -/
def standardParts : List Entry := [⟨.presProps, .other⟩, ⟨.viewProps, .other⟩, ⟨.tableStyles, .other⟩]

/-- src/generator/builder.rs 583-605. -/
def handoutParts : List Entry :=
  [⟨.handoutMaster, .other⟩, ⟨.theme 3, .other⟩, ⟨.handoutRels, .rels handoutMasterRels⟩]

/-- src/generator/builder.rs 608-623. -/
def notesMasterParts : List Entry :=
  [⟨.notesMaster, .other⟩, ⟨.theme 2, .other⟩, ⟨.notesMasterRels, .rels notesMasterRels⟩]

/-- src/generator/builder.rs 626-688. -/
def themeAndLayoutParts (st : BuildSettings) : List Entry :=
  match st.template with
  | some paths =>
    paths.map (fun p => ⟨.templatePart p, .other⟩) ++
      (if st.theme then [⟨.theme 1, .other⟩] else [])
  | none =>
    ((upTo standardLayoutCount).flatMap fun n =>
      [⟨.layout n, .other⟩, ⟨.layoutRels n, .rels layoutRels⟩]) ++
    [⟨.master, .other⟩, ⟨.masterRels, .rels (masterRels standardLayoutCount)⟩, ⟨.theme 1, .other⟩]

/-- The slide's chart relationship ids in the slide part (src/generator/builder.rs 1163-1167). -/
def chartRids (start charts : Nat) : List Str := (consecutive start charts).map fun n => c!"rId" ++ dec n

/-- The parts written for one slide (src/generator/builder.rs 1160-1196): `i` is the slide index,
`n` and `k` the notes and ink parts written so far, `startRid` the first chart relationship id. -/
def slideEntries (i n k startRid : Nat) (s : SlideIn) : List Entry :=
  let inkRel := if s.ink then some (c!"rId" ++ dec (startRid + s.charts)) else none
  (if s.ink then [⟨.ink (k + 1), .other⟩] else []) ++
  [⟨.slide (i + 1), .slide (slideXml s (chartRids startRid s.charts) inkRel)⟩] ++
  (s.notes.toList.map fun text => ⟨.notes (n + 1), .notes (i + 1) text⟩)

/-- src/generator/builder.rs 1148-1197: the loop over the slides. The chart and ink ids here start
after `slide.images.len()`. -/
def writeSlidesFrom : Nat → Nat → Nat → List SlideIn → List Entry
  | _, _, _, [] => []
  | i, n, k, s :: ss =>
    slideEntries i n k (slideContentRelStart s.notes.isSome s.images.length) s ++
    writeSlidesFrom (i + 1) (n + s.notes.isSome.toNat) (k + s.ink.toNat) ss

/-- The relationship part of one slide (src/generator/builder.rs 1230-1270). Ids here start
after the images that were found in the registry. `layoutNumber` is the resolved layout, `notesPart`
and `inkPart` the numbers of its notes and ink parts, `startChart` its first chart number. -/
def slideRelsOf (s : SlideIn) (r : MediaRegistry) (layoutNumber notesPart inkPart startChart : Nat) :
    List RelEntry :=
  let images := slideImageRelTargets s r
  let startRid := slideContentRelStart s.notes.isSome images.length
  slideRelsWithImages layoutNumber s.notes.isSome notesPart
    ((List.range s.charts).map fun j =>
      (startRid + j, c!"../charts/chart" ++ dec (startChart + j) ++ c!".xml"))
    images (hyperlinkRels s)
    (if s.ink then some (startRid + s.charts, inkPart) else none)

/-- src/generator/template.rs 63-75: the template's layout if it has the requested one, else 1. -/
def resolveLayout (st : BuildSettings) (requested : Nat) : Nat :=
  match st.template with
  | none => requested
  | some paths => if paths.contains (PartName.layout requested).path then requested else 1

/-- The relationship part of slide `i`, `n` and `k` being the notes and ink parts of the slides
before it (src/generator/builder.rs 1228-1274). -/
def slideRelsEntry (st : BuildSettings) (r : MediaRegistry) (i n k startChart : Nat) (s : SlideIn) :
    Entry :=
  ⟨.slideRels (i + 1), .rels (slideRelsOf s r (resolveLayout st s.layout.layoutNumber)
    (if s.notes.isSome then n + 1 else 1) (k + 1) startChart)⟩

/-- src/generator/builder.rs 1211-1275: the loop over the slides. -/
def writeSlideRelsFrom (st : BuildSettings) (r : MediaRegistry) :
    Nat → Nat → Nat → List Nat → List SlideIn → List Entry
  | _, _, _, _, [] => []
  | i, n, k, starts, s :: ss =>
    slideRelsEntry st r i n k (starts.headD 0) s ::
      writeSlideRelsFrom st r (i + 1) (n + s.notes.isSome.toNat) (k + s.ink.toNat) starts.tail ss

/-- src/generator/builder.rs 1006-1024. -/
def chartParts (n : Nat) : List Entry :=
  [⟨.chart n, .other⟩, ⟨.chartRels n, .rels (chartRels n)⟩, ⟨.embedding n, .other⟩]

/-- src/generator/builder.rs 1290-1306. -/
def writeChartsFrom : List Nat → List SlideIn → List Entry
  | _, [] => []
  | starts, s :: ss =>
    (consecutive (starts.headD 0) s.charts).flatMap chartParts ++ writeChartsFrom starts.tail ss

/-- src/generator/builder.rs 1309-1327. -/
def writeNotesRelsFrom : Nat → Nat → List SlideIn → List Entry
  | _, _, [] => []
  | i, n, s :: ss =>
    (if s.notes.isSome then [⟨.notesRels (n + 1), .rels (notesRels (i + 1))⟩] else []) ++
      writeNotesRelsFrom (i + 1) (n + s.notes.isSome.toNat) ss

/-- src/generator/builder.rs 1343-1357 from image number `i + 1` on. -/
def writeImagesFrom : Nat → List (List UInt8 × Str) → List Entry
  | _, [] => []
  | i, (bytes, ext) :: l => ⟨.media (i + 1) ext, .media bytes⟩ :: writeImagesFrom (i + 1) l

/-- src/generator/builder.rs 1330-1340. -/
def fontParts (fonts : List EmbeddedFont) : List Entry := fonts.map fun f => ⟨.font f.fileName, .other⟩

/-- src/generator/builder.rs 1360-1377. -/
def signatureParts : List Entry := [⟨.sigOrigin, .other⟩, ⟨.sig, .other⟩]

/-- The slides of a plain deck: `create_slide_xml` has drawing ids 1 and 2 and no references
(src/generator/builder.rs 1198-1205, src/generator/slide_xml/mod.rs 20-77). -/
def plainSlideParts (count : Nat) : List Entry :=
  (upTo count).map fun i => ⟨.slide i, .slide ⟨[1, 2], [], [], none, []⟩⟩

/-- src/generator/builder.rs 1276-1284, src/generator/slide_xml/common.rs 39-52. -/
def plainSlideRelParts (count : Nat) : List Entry :=
  (upTo count).map fun i => ⟨.slideRels i, .rels [rel 1 c!"slideLayout" (layoutRelTarget 2)]⟩

/-- src/generator/builder.rs 1148-1208. -/
def writeSlides : Deck → List Entry
  | .custom l => writeSlidesFrom 0 0 0 l
  | .plain n => plainSlideParts n

/-- src/generator/builder.rs 1211-1287. -/
def writeSlideRels (d : Deck) (st : BuildSettings) (starts : List Nat) : List Entry :=
  match d with
  | .custom l => writeSlideRelsFrom st (buildMediaRegistry l) 0 0 0 starts l
  | .plain n => plainSlideRelParts n

/-- src/generator/builder.rs 713-807: all archive entries in writing order. A template that fails
to load is an error before anything is written and is not modelled. Without a font list
`create_presentation_rels_xml_full` is called, which is the same as with an empty one. -/
def buildPackage (d : Deck) (st : BuildSettings) : List Entry :=
  let count := d.count
  let notes := hasNotes d.slides
  let fonts := prepareFonts st count notes
  let starts := chartStarts 0 d.slides
  [⟨.contentTypes, .contentTypes (contentTypesPart d st)⟩,
   ⟨.rootRels, .rels (rootRels st.signature)⟩,
   ⟨.presRels, .rels (presentationRelsWithFonts count notes st.handout (fonts.getD []))⟩,
   ⟨.presentation, .presentation (presentationXml count notes st.handout (fonts.getD []))⟩] ++
  standardParts ++
  (if st.handout then handoutParts else []) ++
  writeSlides d ++
  writeSlideRels d st starts ++
  (if notes then writeNotesRelsFrom 0 0 d.slides ++ notesMasterParts else []) ++
  themeAndLayoutParts st ++
  [⟨.core, .other⟩, ⟨.app, .other⟩] ++
  (if totalCharts d.slides > 0 then writeChartsFrom starts d.slides else []) ++
  writeImagesFrom 0 (buildMediaRegistry d.slides).files ++
  fontParts (fonts.getD []) ++
  (if st.signature then signatureParts else [])

/-! ## Lazy generation -/

/-- src/generator/builder.rs 1027-1122: one pass over the slides a lazy source yields, here a
source that yields a slide for every index. Unlike `writeSlidesFrom` the ids in the slide part
start after the images found in the registry. -/
def writeSlidePackagesLazyFrom (st : BuildSettings) (r : MediaRegistry) :
    Nat → Nat → Nat → List Nat → List SlideIn → List Entry
  | _, _, _, _, [] => []
  | i, n, k, starts, s :: ss =>
    slideEntries i n k (slideContentRelStart s.notes.isSome (slideImageRelTargets s r).length) s ++
    [slideRelsEntry st r i n k (starts.headD 0) s] ++
    (consecutive (starts.headD 0) s.charts).flatMap chartParts ++
    writeSlidePackagesLazyFrom st r (i + 1) (n + s.notes.isSome.toNat) (k + s.ink.toNat)
      starts.tail ss

/-- src/generator/builder.rs 906-1003. The signature, font and ink entries are added before
`</Types>` has been written. -/
def contentTypesPartLazy (slides : List SlideIn) (st : BuildSettings) : ContentTypes :=
  let exts := (buildMediaRegistry slides).extensions
  let chartCount := totalCharts slides
  let ct : ContentTypes :=
    { defaults := (contentTypesOpening exts chartCount).defaults
      overrides := (contentTypesOpening exts chartCount).overrides ++
        (upTo slides.length).map (fun i => overrideOf (.slide i) .slide) ++
        notesOverrides (notesCount slides) ++ handoutOverrides st.handout ++
        chartOverrides chartCount ++ contentTypesFooter ++ layoutOverrides
      closed := (contentTypesOpening exts chartCount).closed }
  let ct := if st.signature then appendSignatureTypes ct else ct
  let ct := if (st.fonts.getD []).isEmpty then ct else appendFontTypes ct
  { appendInkTypes ct (inkCount slides) with closed := true }

/-- src/generator/builder.rs 810-903 with a source that yields the given slides
(`slide_features` reads the generated slide, builder.rs 292-295). -/
def buildPackageLazy (slides : List SlideIn) (st : BuildSettings) : List Entry :=
  let count := slides.length
  let notes := hasNotes slides
  let fonts := prepareFonts st count notes
  [⟨.contentTypes, .contentTypes (contentTypesPartLazy slides st)⟩,
   ⟨.rootRels, .rels (rootRels st.signature)⟩,
   ⟨.presRels, .rels (presentationRelsWithFonts count notes st.handout (fonts.getD []))⟩,
   ⟨.presentation, .presentation (presentationXml count notes st.handout (fonts.getD []))⟩] ++
  standardParts ++
  (if st.handout then handoutParts else []) ++
  writeSlidePackagesLazyFrom st (buildMediaRegistry slides) 0 0 0 (chartStarts 0 slides) slides ++
  (if notes then writeNotesRelsFrom 0 0 slides ++ notesMasterParts else []) ++
  themeAndLayoutParts st ++
  [⟨.core, .other⟩, ⟨.app, .other⟩] ++
  writeImagesFrom 0 (buildMediaRegistry slides).files ++
  fontParts (fonts.getD []) ++
  (if st.signature then signatureParts else [])

end PptRs
