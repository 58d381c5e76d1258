import Verif.Model.Reader
import Verif.Model.Relationships

/-!
# Writing and reading relationship parts and the presentation part

`src/parts/relationships.rs` and `src/parts/presentation.rs`.
-/

namespace PptRs

namespace Relationships

/-- `Relationship::to_xml` with the line break before it, src/parts/relationships.rs 86-93 and 173-176. -/
def relLine (r : Rel) : List Part :=
  t!"
    <Relationship Id=\"{.raw r.id}\" Type=\"{.raw r.relType.uri}\" Target=\"{.raw r.target}\"/>"

/-- `Relationships::to_xml`, src/parts/relationships.rs 167-180. -/
def toXml (r : Relationships) : Str :=
  xmlDecl ++ fmt (t!"<Relationships xmlns=\"http://schemas.openxmlformats.org/package/2006/relationships\">"
    ++ r.rels.flatMap relLine ++ t!"
</Relationships>")

/-- The attributes of a `Relationship` element, src/parts/relationships.rs 196-201; elements that lack one are
skipped. -/
def relOf (e : XmlElement) : Option Rel :=
  (e.attr c!"Id").bind fun id => (e.attr c!"Type").bind fun ty => (e.attr c!"Target").map fun target =>
    ⟨id, .fromUri ty, target⟩

/-- The loop of `from_xml`: `none` is the overflow of `add_with_id`. -/
def addAll (r : Relationships) : List Rel → Option Relationships
  | [] => some r
  | x :: xs => (r.addWithId x.id x.relType x.target).bind fun r' => addAll r' xs

/-- `Relationships::from_xml`, src/parts/relationships.rs 191-206: `none` if the text is no XML, `some none` if it
crashes. -/
def fromXml (x : Str) : Option (Option Relationships) :=
  (XmlElement.parse x).map fun root => addAll new ((root.findAll c!"Relationship").filterMap relOf)

end Relationships

/-- The fields of `PresentationPart` that are written, src/parts/presentation.rs 19-26. -/
structure PresentationFile where
  part : PresentationPart
  width : Nat
  height : Nat
deriving DecidableEq

namespace PresentationFile

/-- src/parts/presentation.rs 30-39. -/
def new : PresentationFile := ⟨.new, 9144000, 6858000⟩

/-- An entry of the slide list, src/parts/presentation.rs 136-141. -/
def slideLine (s : SlideRef) : List Part := t!"
<p:sldId id=\"{.num s.id}\" r:id=\"{.raw s.rId}\"/>"

/-- `to_xml`, src/parts/presentation.rs 134-165. -/
def toXml (p : PresentationFile) : Str :=
  xmlDecl ++ fmt (t!"<p:presentation xmlns:a=\"http://schemas.openxmlformats.org/drawingml/2006/main\" xmlns:r=\"http://schemas.openxmlformats.org/officeDocument/2006/relationships\" xmlns:p=\"http://schemas.openxmlformats.org/presentationml/2006/main\" saveSubsetFonts=\"1\">
<p:sldMasterIdLst>
<p:sldMasterId id=\"2147483648\" r:id=\"{.raw (p.part.slideMasterRId.getD c!"rId1")}\"/>
</p:sldMasterIdLst>
<p:sldIdLst>" ++ p.part.slideRefs.flatMap slideLine ++ t!"
</p:sldIdLst>
<p:sldSz cx=\"{.num p.width}\" cy=\"{.num p.height}\" type=\"screen4x3\"/>
<p:notesSz cx=\"{.num p.height}\" cy=\"{.num p.width}\"/>
</p:presentation>")

/-- The attributes of a slide list entry, src/parts/presentation.rs 173-179. -/
def slideRefOf (e : XmlElement) : Option SlideRef :=
  (e.attr c!"id").bind fun id => (e.attr c!"r:id").bind fun rId => (parseU32? id).map fun n => ⟨n, rId⟩

/-- `from_xml`, src/parts/presentation.rs 167-198; `none` is an error. -/
def fromXml (x : Str) : Option PresentationFile :=
  (XmlElement.parse x).map fun root =>
    { part :=
        { slideRefs := (root.findAllDescendants c!"sldId").filterMap slideRefOf
          slideMasterRId := (root.findDescendant c!"sldMasterId").bind (·.attr c!"r:id")
          themeRId := none }
      width := (((root.findDescendant c!"sldSz").bind (·.attr c!"cx")).bind parseU32?).getD 9144000
      height := (((root.findDescendant c!"sldSz").bind (·.attr c!"cy")).bind parseU32?).getD 6858000 }

end PresentationFile

end PptRs
