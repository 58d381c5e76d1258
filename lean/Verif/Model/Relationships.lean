import Verif.Model.Str

/-!
# `parts::relationships` and `parts::presentation`
-/

namespace PptRs

/-- src/parts/relationships.rs 11-22. -/
inductive RelType where
  | officeDocument | slide | slideLayout | slideMaster | theme | image | chart | coreProperties
  | extendedProperties
  | custom (uri : Str)
deriving DecidableEq, Repr

/-- src/parts/relationships.rs 26-39. -/
def RelType.uri : RelType → Str
  | .officeDocument =>
    c!"http://schemas.openxmlformats.org/officeDocument/2006/relationships/officeDocument"
  | .slide => c!"http://schemas.openxmlformats.org/officeDocument/2006/relationships/slide"
  | .slideLayout => c!"http://schemas.openxmlformats.org/officeDocument/2006/relationships/slideLayout"
  | .slideMaster => c!"http://schemas.openxmlformats.org/officeDocument/2006/relationships/slideMaster"
  | .theme => c!"http://schemas.openxmlformats.org/officeDocument/2006/relationships/theme"
  | .image => c!"http://schemas.openxmlformats.org/officeDocument/2006/relationships/image"
  | .chart => c!"http://schemas.openxmlformats.org/officeDocument/2006/relationships/chart"
  | .coreProperties =>
    c!"http://schemas.openxmlformats.org/package/2006/relationships/metadata/core-properties"
  | .extendedProperties =>
    c!"http://schemas.openxmlformats.org/officeDocument/2006/relationships/extended-properties"
  | .custom uri => uri

/-- src/parts/relationships.rs 42-64. -/
def RelType.fromUri (uri : Str) : RelType :=
  if containsStr c!"/slide" uri && !containsStr c!"Layout" uri && !containsStr c!"Master" uri then .slide
  else if containsStr c!"/slideLayout" uri then .slideLayout
  else if containsStr c!"/slideMaster" uri then .slideMaster
  else if containsStr c!"/theme" uri then .theme
  else if containsStr c!"/image" uri then .image
  else if containsStr c!"/chart" uri then .chart
  else if containsStr c!"/officeDocument" uri then .officeDocument
  else if containsStr c!"core-properties" uri then .coreProperties
  else if containsStr c!"extended-properties" uri then .extendedProperties
  else .custom uri

/-- src/parts/relationships.rs 69-73. -/
structure Rel where
  id : Str
  relType : RelType
  target : Str
deriving DecidableEq, Repr

/-- src/parts/relationships.rs 104-107. `nextId` is a `u32`. -/
structure Relationships where
  rels : List Rel
  nextId : Nat
deriving DecidableEq, Repr

namespace Relationships

/-- src/parts/relationships.rs 111-116. -/
def new : Relationships := ⟨[], 1⟩

/-- `#[derive(Default)]`, src/parts/relationships.rs 103: the counter starts at 0. -/
def default : Relationships := ⟨[], 0⟩

/-- src/parts/relationships.rs 119-125. `none` is the overflow panic of `self.next_id += 1`. -/
def add (r : Relationships) (t : RelType) (target : Str) : Option (Relationships × Str) :=
  let id := c!"rId" ++ dec r.nextId
  if r.nextId + 1 < 4294967296 then
    some (⟨r.rels ++ [⟨id, t, target⟩], r.nextId + 1⟩, id)
  else none

/-- The number `add_with_id` reads from an id: `id.strip_prefix("rId")` then `parse::<u32>()`
(src/parts/relationships.rs 132). -/
def idNumber (id : Str) : Option Nat := (stripPrefix? c!"rId" id).bind parseU32?

/-- src/parts/relationships.rs 128-136. `none` is the overflow panic of `num + 1`. -/
def addWithId (r : Relationships) (id : Str) (t : RelType) (target : Str) : Option Relationships :=
  let rels := r.rels ++ [⟨id, t, target⟩]
  match idNumber id with
  | some num =>
    if num ≥ r.nextId then
      if num + 1 < 4294967296 then some ⟨rels, num + 1⟩ else none
    else some ⟨rels, r.nextId⟩
  | none => some ⟨rels, r.nextId⟩

/-- src/parts/relationships.rs 139-141. -/
def get (r : Relationships) (id : Str) : Option Rel := r.rels.find? fun x => x.id = id

/-- src/parts/relationships.rs 144-149. -/
def getByType (r : Relationships) (t : RelType) : List Rel := r.rels.filter fun x => x.relType = t

end Relationships

/-- src/parts/presentation.rs 12-15. -/
structure SlideRef where
  id : Nat
  rId : Str
deriving DecidableEq, Repr

/-- src/parts/presentation.rs 19-26, without path and slide size. -/
structure PresentationPart where
  slideRefs : List SlideRef
  slideMasterRId : Option Str
  themeRId : Option Str
deriving DecidableEq, Repr

namespace PresentationPart

/-- src/parts/presentation.rs 30-39. -/
def new : PresentationPart := ⟨[], none, none⟩

/-- src/parts/presentation.rs 52-59. The slide count is assumed to fit `u32`. -/
def addSlide (p : PresentationPart) (rId : Str) : PresentationPart × Nat :=
  let id := 256 + p.slideRefs.length + 1
  ({ p with slideRefs := p.slideRefs ++ [⟨id, rId⟩] }, id)

/-- The slide loop of `create_relationships`, src/parts/presentation.rs 103-109. -/
def addSlideRels : List SlideRef → Nat → Relationships → Option Relationships
  | [], _, r => some r
  | s :: ss, i, r =>
    (r.addWithId s.rId .slide (c!"slides/slide" ++ dec (i + 1) ++ c!".xml")).bind
      (addSlideRels ss (i + 1))

/-- src/parts/presentation.rs 78-112. -/
def createRelationships (p : PresentationPart) : Option Relationships :=
  (match p.slideMasterRId with
    | some id => Relationships.new.addWithId id .slideMaster c!"slideMasters/slideMaster1.xml"
    | none => (Relationships.new.add .slideMaster c!"slideMasters/slideMaster1.xml").map Prod.fst).bind
  fun r =>
    (match p.themeRId with
      | some id => r.addWithId id .theme c!"theme/theme1.xml"
      | none => (r.add .theme c!"theme/theme1.xml").map Prod.fst).bind
    fun r => addSlideRels p.slideRefs 0 r

end PresentationPart

end PptRs
