import Verif.Model.Utf8
import Verif.Model.SlideText
import Verif.Model.Builder

/-!
# The presentation editor

`PresentationEditor`, src/oxml/editor.rs. A method that takes `&mut self` returns the editor
afterwards and its result, also when it fails, so that the effect of a failed call is visible.
Numbers are unbounded, and the package is in memory.
-/

namespace PptRs

/-- src/oxml/editor.rs 19-22. -/
structure Editor where
  package : Package
  slideCount : Nat

namespace Editor

/-- The part name of a slide, e.g. src/oxml/editor.rs 71. -/
def slidePath (n : Nat) : Str := c!"ppt/slides/slide" ++ dec n ++ c!".xml"

/-- The name of a slide's relationship part, e.g. src/oxml/editor.rs 75. -/
def slideRelsPath (n : Nat) : Str := c!"ppt/slides/_rels/slide" ++ dec n ++ c!".xml.rels"

/-- `ppt/presentation.xml`. -/
def presPath : Str := c!"ppt/presentation.xml"

/-- `ppt/_rels/presentation.xml.rels`. -/
def presRelsPath : Str := c!"ppt/_rels/presentation.xml.rels"

/-- `[Content_Types].xml`. -/
def typesPath : Str := c!"[Content_Types].xml"

/-- `temp_slide_path`, src/oxml/editor.rs 231. -/
def tempPath : Str := c!"ppt/slides/_temp_slide.xml"

/-- `temp_rels_path`, src/oxml/editor.rs 232. -/
def tempRelsPath : Str := c!"ppt/slides/_rels/_temp_slide.xml.rels"

/-- The filter of `count_slides`, src/oxml/editor.rs 294-296. -/
def isSlidePart (p : Str) : Bool :=
  startsWith c!"ppt/slides/slide" p && endsWith c!".xml" p && !containsStr c!"_rels" p

/-- `count_slides`, src/oxml/editor.rs 290-298. -/
def countSlides (p : Package) : Nat := (p.partPaths.filter isSlidePart).length

/-- `open` on the package read from the file, src/oxml/editor.rs 26-34. -/
def ofPackage (p : Package) : Editor := ⟨p, countSlides p⟩

/-- `new`, src/oxml/editor.rs 37-42. -/
def new : Editor := ⟨Package.new, 0⟩

/-- The part that `get_slide` parses, src/oxml/editor.rs 50-60. -/
def getSlide (e : Editor) (index : Nat) : Option Bytes := e.package.getPart (slidePath (index + 1))

/-- `create_slide_rels_xml`, src/generator/slide_xml/common.rs 39-52. -/
def newSlideRels : Str := renderRels [rel 1 c!"slideLayout" (layoutRelTarget 2)]

/-- `presentation_has_notes`, src/oxml/editor.rs 300-302. -/
def hasNotesList (xml : Str) : Bool := containsStr c!"<p:notesMasterIdLst>" xml

/-- `presentation_has_handout`, src/oxml/editor.rs 304-306. -/
def hasHandoutList (xml : Str) : Bool := containsStr c!"<p:handoutMasterIdLst>" xml

/-- `find` and `insert_str`: inserts `new` before the first `mark`, if there is one. -/
def insertBefore (mark new xml : Str) : Str :=
  ((splitOnce? mark xml).map fun p => p.1 ++ new ++ mark ++ p.2).getD xml

/-- The entry of a slide in the slide list, src/oxml/editor.rs 329 and 431-433. -/
def slideRef (n : Nat) : List Part :=
  t!"\n<p:sldId id=\"{.num (slideIdValue n)}\" r:id=\"rId{.num (slideRelId n)}\"/>"

/-- `add_slide_to_presentation_xml`, src/oxml/editor.rs 318-339. -/
def addToPresentation (xml : Str) (n : Nat) : Str := insertBefore c!"</p:sldIdLst>" (fmt (slideRef n)) xml

/-- `add_slide_to_presentation_rels`, src/oxml/editor.rs 355-374. -/
def addToPresentationRels (xml : Str) (n : Nat) : Str :=
  insertBefore c!"</Relationships>" ('\n' :: renderRel (rel (slideRelId n) c!"slide"
    (c!"slides/slide" ++ dec n ++ c!".xml"))) xml

/-- The `Override` of a slide, src/oxml/editor.rs 386-388 and 497-499. -/
def slideOverride (n : Nat) : List Part :=
  t!"\n<Override PartName=\"/ppt/slides/slide{.num n}.xml\" ContentType=\"application/vnd.openxmlformats-officedocument.presentationml.slide+xml\"/>"

/-- `add_slide_to_content_types`, src/oxml/editor.rs 385-397. -/
def addToContentTypes (xml : Str) (n : Nat) : Str := insertBefore c!"</Types>" (fmt (slideOverride n)) xml

/-- `if let Some(xml) = get_part_string(path) { add_part(path, f(xml)) }`, as in
src/oxml/editor.rs 308-316, 341-353 and 376-383. -/
def updatePart (p : Package) (path : Str) (f : Str → Str) : Package :=
  match p.getPartString path with
  | some xml => p.addPart path (encode (f xml))
  | none => p

/-- `if let Some(content) = remove_part(old) { add_part(new, content) }`. -/
def movePart (p : Package) (old new : Str) : Package :=
  match (p.removePart old).2 with
  | some c => Package.addPart (p.removePart old).1 new c
  | none => (p.removePart old).1

/-- `renumber_slide`, src/oxml/editor.rs 399-417. -/
def renumber (p : Package) (old new : Nat) : Package :=
  movePart (movePart p (slidePath old) (slidePath new)) (slideRelsPath old) (slideRelsPath new)

/-- The text of `rebuild_presentation_xml`, src/oxml/editor.rs 427-470. -/
def rebuiltPresentation (count : Nat) (hasNotes hasHandout : Bool) : Str :=
  xmlDecl ++ fmt (
    t!"<p:presentation xmlns:a=\"http://schemas.openxmlformats.org/drawingml/2006/main\" xmlns:r=\"http://schemas.openxmlformats.org/officeDocument/2006/relationships\" xmlns:p=\"http://schemas.openxmlformats.org/presentationml/2006/main\" saveSubsetFonts=\"1\" autoCompressPictures=\"0\">
<p:sldMasterIdLst>
<p:sldMasterId id=\"2147483648\" r:id=\"rId1\"/>
</p:sldMasterIdLst>"
    ++ whenSet hasNotes t!"
<p:notesMasterIdLst>
<p:notesMasterId id=\"2147483650\" r:id=\"rId6\"/>
</p:notesMasterIdLst>"
    ++ whenSet hasHandout t!"
<p:handoutMasterIdLst>
<p:handoutMasterId id=\"2147483651\" r:id=\"rId{.num (if hasNotes then 7 else 6)}\"/>
</p:handoutMasterIdLst>"
    ++ t!"
<p:sldIdLst>" ++ (upTo count).flatMap slideRef ++ t!"
</p:sldIdLst>
<p:sldSz cx=\"9144000\" cy=\"6858000\" type=\"screen4x3\"/>
<p:notesSz cx=\"6858000\" cy=\"9144000\"/>
</p:presentation>")

/-- `get_part_string("ppt/presentation.xml").unwrap_or_default()`. -/
def presText (p : Package) : Str := (p.getPartString presPath).getD []

/-- `rebuild_presentation_xml`, src/oxml/editor.rs 419-475. -/
def rebuildPresentation (e : Editor) : Editor :=
  { e with package := e.package.addPart presPath (encode (rebuiltPresentation e.slideCount
      (hasNotesList (presText e.package)) (hasHandoutList (presText e.package)))) }

/-- `rebuild_presentation_rels`, src/oxml/editor.rs 477-492. -/
def rebuildPresentationRels (e : Editor) : Editor :=
  { e with package := e.package.addPart presRelsPath (encode (renderRels (presentationRels e.slideCount
      (hasNotesList (presText e.package)) (hasHandoutList (presText e.package))))) }

/-- The text of `rebuild_content_types`, src/oxml/editor.rs 495-514. -/
def rebuiltContentTypes (count : Nat) : Str :=
  xmlDecl ++ fmt (
    t!"<Types xmlns=\"http://schemas.openxmlformats.org/package/2006/content-types\">
<Default Extension=\"rels\" ContentType=\"application/vnd.openxmlformats-package.relationships+xml\"/>
<Default Extension=\"xml\" ContentType=\"application/xml\"/>
<Override PartName=\"/ppt/presentation.xml\" ContentType=\"application/vnd.openxmlformats-officedocument.presentationml.presentation.main+xml\"/>"
    ++ (upTo count).flatMap slideOverride ++ t!"
<Override PartName=\"/ppt/slideLayouts/slideLayout1.xml\" ContentType=\"application/vnd.openxmlformats-officedocument.presentationml.slideLayout+xml\"/>
<Override PartName=\"/ppt/slideMasters/slideMaster1.xml\" ContentType=\"application/vnd.openxmlformats-officedocument.presentationml.slideMaster+xml\"/>
<Override PartName=\"/ppt/theme/theme1.xml\" ContentType=\"application/vnd.openxmlformats-officedocument.theme+xml\"/>
<Override PartName=\"/docProps/core.xml\" ContentType=\"application/vnd.openxmlformats-package.core-properties+xml\"/>
<Override PartName=\"/docProps/app.xml\" ContentType=\"application/vnd.openxmlformats-officedocument.extended-properties+xml\"/>
</Types>")

/-- `rebuild_content_types`, src/oxml/editor.rs 494-519. -/
def rebuildContentTypes (e : Editor) : Editor :=
  { e with package := e.package.addPart typesPath (encode (rebuiltContentTypes e.slideCount)) }

/-- The three rebuilds, e.g. src/oxml/editor.rs 130-132. -/
def rebuild (e : Editor) : Editor := rebuildContentTypes (rebuildPresentationRels (rebuildPresentation e))

/-- `add_slide`, src/oxml/editor.rs 63-90. -/
def addSlide (e : Editor) (content : SlideText) : Editor × Option Nat :=
  let n := e.slideCount + 1
  let p := Package.addPart e.package (slidePath n) (encode content.xml)
  let p := Package.addPart p (slideRelsPath n) (encode newSlideRels)
  let p := updatePart p presPath fun xml => addToPresentation xml n
  let p := updatePart p presRelsPath fun xml => addToPresentationRels xml n
  let p := updatePart p typesPath fun xml => addToContentTypes xml n
  (⟨p, n⟩, some (n - 1))

/-- `update_slide`, src/oxml/editor.rs 93-104. -/
def updateSlide (e : Editor) (index : Nat) (content : SlideText) : Editor × Option Nat :=
  if index ≥ e.slideCount then (e, none)
  else ({ e with package := e.package.addPart (slidePath (index + 1)) (encode content.xml) }, some 0)

/-- The loop of `remove_slide` and of `reorder_slide` to the right: moves slides `first + 1`, ...,
`first + k` down by one, src/oxml/editor.rs 123-125 and 245-247. -/
def shiftDown (p : Package) (first k : Nat) : Package :=
  (List.range' first k).foldl (fun p i => renumber p (i + 1) i) p

/-- The loop of `insert_slide`, `duplicate_slide` and of `reorder_slide` to the left: moves slides
`first + k - 1`, ..., `first` up by one, src/oxml/editor.rs 163-165, 191-193 and 250-252. -/
def shiftUp (p : Package) (first k : Nat) : Package :=
  (List.range' first k).reverse.foldl (fun p i => renumber p i (i + 1)) p

/-- `remove_slide`, src/oxml/editor.rs 107-135. -/
def removeSlide (e : Editor) (index : Nat) : Editor × Option Nat :=
  if index ≥ e.slideCount then (e, none)
  else
    let n := index + 1
    let p := (e.package.removePart (slidePath n)).1
    let p := (Package.removePart p (slideRelsPath n)).1
    let p := shiftDown p n (e.slideCount - n)
    (rebuild ⟨p, e.slideCount - 1⟩, some 0)

/-- `duplicate_slide`, src/oxml/editor.rs 138-180. -/
def duplicateSlide (e : Editor) (index : Nat) : Editor × Option Nat :=
  if index ≥ e.slideCount then (e, none)
  else
    match e.package.getPart (slidePath (index + 1)) with
    | none => (e, none)
    | some data =>
      let rels := (e.package.getPart (slideRelsPath (index + 1))).getD []
      let n := index + 2
      let p := shiftUp e.package n (e.slideCount + 1 - n)
      let p := Package.addPart p (slidePath n) data
      let p := Package.addPart p (slideRelsPath n) rels
      (rebuild ⟨p, e.slideCount + 1⟩, some (index + 1))

/-- `insert_slide`, src/oxml/editor.rs 183-213. -/
def insertSlide (e : Editor) (index : Nat) (content : SlideText) : Editor × Option Nat :=
  if index > e.slideCount then (e, none)
  else
    let n := index + 1
    let p := shiftUp e.package n (e.slideCount + 1 - n)
    let p := Package.addPart p (slidePath n) (encode content.xml)
    let p := Package.addPart p (slideRelsPath n) (encode newSlideRels)
    (rebuild ⟨p, e.slideCount + 1⟩, some index)

/-- `reorder_slide`, src/oxml/editor.rs 216-270. -/
def reorderSlide (e : Editor) (src dst : Nat) : Editor × Option Nat :=
  if src ≥ e.slideCount ∨ dst ≥ e.slideCount then (e, none)
  else if src = dst then (e, some 0)
  else
    let p := movePart e.package (slidePath (src + 1)) tempPath
    let p := movePart p (slideRelsPath (src + 1)) tempRelsPath
    let p := if src < dst then shiftDown p (src + 1) (dst - src) else shiftUp p (dst + 1) (src - dst)
    let p := movePart p tempPath (slidePath (dst + 1))
    let p := movePart p tempRelsPath (slideRelsPath (dst + 1))
    (rebuild { e with package := p }, some 0)

/-- A call of the editor. -/
inductive Op where
  | add (c : SlideText)
  | insert (i : Nat) (c : SlideText)
  | update (i : Nat) (c : SlideText)
  | remove (i : Nat)
  | duplicate (i : Nat)
  | reorder (src dst : Nat)

/-- The call on an editor. -/
def Op.run (e : Editor) : Op → Editor × Option Nat
  | .add c => e.addSlide c
  | .insert i c => e.insertSlide i c
  | .update i c => e.updateSlide i c
  | .remove i => e.removeSlide i
  | .duplicate i => e.duplicateSlide i
  | .reorder a b => e.reorderSlide a b

end Editor

end PptRs
