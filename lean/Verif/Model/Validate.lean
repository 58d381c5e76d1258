import Verif.Model.Rels
import Verif.Model.StrReplace
import Verif.Model.Repair

/-!
# The package validator

`validate_package` (src/core/package_validation) reads the entries of an archive as text and looks for
the marks it expects. An issue keeps its category and the part it is reported for; the message is
left out.
-/

namespace PptRs.Validate

/-- `ValidationCategory`, src/core/package_validation/report.rs. -/
inductive Category where
  | missingPart | xml | relationship | contentType | presentation | slideMaster | theme | chart | slide
deriving DecidableEq, Repr

/-- `PackageValidationIssue`, src/core/package_validation/report.rs; all rules report errors. -/
structure Issue where
  category : Category
  path : Str
deriving DecidableEq, Repr

/-- The file entries of a ZIP archive: name and text, `none` for an entry that is not UTF-8. Folder
entries are left out and names are taken to be distinct. -/
abbrev Archive := List (Str × Option Str)

/-- src/core/package_validation/context.rs 62-64. -/
def hasPart (a : Archive) (path : Str) : Bool := a.any fun e => e.1 = path

/-- src/core/package_validation/context.rs 79-113. The cache makes no difference. -/
def readPart (a : Archive) (path : Str) : Option Str := (a.find? fun e => e.1 = path).bind (·.2)

/-- src/core/package_validation/context.rs 44-57, 66-71: the relationships of a relationship part, none
if it is missing. -/
def relationships (a : Archive) (path : Str) : List Relationship :=
  if endsWith c!".rels" path then
    match readPart a path with
    | some text => parseRelationships text (relsSourceDir path)
    | none => []
  else []

/-- src/core/package_validation/context.rs 73-77: in any order. -/
def relationshipParts (a : Archive) : List (Str × List Relationship) :=
  (a.filter fun e => endsWith c!".rels" e.1 && e.2.isSome).map fun e => (e.1, relationships a e.1)

/-- `REQUIRED_PACKAGE_PARTS`, src/core/package_validation/rules.rs 17-30. -/
def requiredPackageParts : List Str :=
  [c!"[Content_Types].xml", c!"_rels/.rels", c!"ppt/presentation.xml", c!"ppt/_rels/presentation.xml.rels",
   c!"ppt/presProps.xml", c!"ppt/viewProps.xml", c!"ppt/tableStyles.xml", c!"ppt/theme/theme1.xml",
   c!"ppt/slideMasters/slideMaster1.xml", c!"ppt/slideLayouts/slideLayout1.xml", c!"docProps/core.xml",
   c!"docProps/app.xml"]

/-- An issue if a condition holds. -/
def issueIf (b : Bool) (c : Category) (path : Str) : List Issue := if b then [⟨c, path⟩] else []

/-- src/core/package_validation/rules.rs 71-81. -/
def checkRequiredParts (a : Archive) : List Issue :=
  requiredPackageParts.flatMap fun p => issueIf (!hasPart a p) .missingPart p

/-- src/core/package_validation/rules.rs 83-105. -/
def checkXmlParts (a : Archive) : List Issue :=
  (a.filter fun e => endsWith c!".xml" e.1 || endsWith c!".rels" e.1).flatMap fun e =>
    match readPart a e.1 with
    | some text => issueIf (!Repair.validateWellFormedXml text) .xml e.1
    | none => []

/-- src/core/package_validation/rules.rs 109-125. -/
def checkTarget (a : Archive) (path : Str) (r : Relationship) : List Issue :=
  if r.targetMode = c!"External" then [] else issueIf (!hasPart a r.resolved) .relationship path

/-- src/core/package_validation/rules.rs 107-127. -/
def checkRelationshipTargets (a : Archive) : List Issue :=
  (relationshipParts a).flatMap fun p => p.2.flatMap (checkTarget a p.1)

/-- `path.rsplit('.').next()`: the text after the last dot, the whole text without one. -/
def lastSegment (path : Str) : Str := (splitChar '.' path).getLastD []

/-- src/core/package_validation/rules.rs 139-154. -/
def checkTypeOf (ct path : Str) : List Issue :=
  if endsWith c!".rels" path || path = c!"[Content_Types].xml" then []
  else if containsStr (c!"/" ++ path) ct then []
  else
    let ext := lastSegment path
    issueIf (ext = [] || !containsStr (c!"Extension=\"" ++ ext ++ c!"\"") ct) .contentType path

/-- src/core/package_validation/rules.rs 129-156. -/
def checkContentTypes (a : Archive) : List Issue :=
  match readPart a c!"[Content_Types].xml" with
  | none => []
  | some ct => a.flatMap fun e => checkTypeOf ct e.1

/-- `s.matches(p).count()` for a non-empty `p`, at most `fuel`. -/
def countMatches (p : Str) : Nat → Str → Nat
  | 0, _ => 0
  | fuel + 1, s =>
    match splitOnce? p s with
    | none => 0
    | some (_, rest) => countMatches p fuel rest + 1

/-- `s.matches(p).count()` for a non-empty `p`. -/
def matchCount (p s : Str) : Nat := countMatches p s.length s

/-- src/core/package_validation/rules.rs 582-587: the text from a tag on, cut at the first `/>`, else at
the first `</`, else not at all. -/
def cutElement (s : Str) : Str × Str :=
  match splitOnce? c!"/>" s with
  | some (x, rest) => (x, c!"/>" ++ rest)
  | none =>
    match splitOnce? c!"</" s with
    | some (x, rest) => (x, c!"</" ++ rest)
    | none => (s, [])

/-- src/core/package_validation/rules.rs 588-593: the value of an attribute in the text of a tag. -/
def attrIn (attr slice : Str) : List Str :=
  match splitOnce? (attr ++ c!"=\"") slice with
  | none => []
  | some (_, rest) =>
    match splitOnce? c!"\"" rest with
    | none => []
    | some (v, _) => [v]

/-- src/core/package_validation/rules.rs 580-595: the loop on the text that is left. A round drops at
least one character unless the text is cut at its very beginning, which an element name cannot be
(`<` followed by a letter), so the fuel does not run out. -/
def extractLoop (element attr : Str) : Nat → Str → List Str
  | 0, _ => []
  | fuel + 1, s =>
    match splitOnce? ('<' :: element) s with
    | none => []
    | some (_, rest) =>
      let cut := cutElement ('<' :: element ++ rest)
      attrIn attr cut.1 ++ extractLoop element attr fuel cut.2

/-- `extract_attr_values`, src/core/package_validation/rules.rs 574-598. -/
def extractAttrValues (xml element attr : Str) : List Str := extractLoop element attr (xml.length + 1) xml

/-- src/core/package_validation/rules.rs 604-614: the loop over one attribute. -/
def refLoop (mark : Str) : Nat → Str → List Str
  | 0, _ => []
  | fuel + 1, s =>
    match splitOnce? mark s with
    | none => []
    | some (_, rest) =>
      (match splitOnce? c!"\"" rest with
        | some (id, _) => if startsWith c!"rId" id then [id] else []
        | none => []) ++ refLoop mark fuel rest

/-- `extract_rel_reference_ids`, src/core/package_validation/rules.rs 601-619. The code sorts the ids;
their order makes no difference here. -/
def extractRelReferenceIds (xml : Str) : List Str :=
  (refLoop c!"r:embed=\"" (xml.length + 1) xml ++ refLoop c!"r:id=\"" (xml.length + 1) xml).eraseDups

/-- A map from ids collected from a list: the last entry with an id wins. -/
def lastById (l : List Relationship) (id : Str) : Option Relationship := l.reverse.find? fun r => r.id = id

/-- `is_slide_part`, src/core/package_validation/rules.rs 567-571. -/
def isSlidePart (path : Str) : Bool :=
  startsWith c!"ppt/slides/slide" path && endsWith c!".xml" path && !containsStr c!"/_rels/" path

/-- `text.find(p)`: where the first occurrence begins. -/
def findAt (p s : Str) : Option Nat := (splitOnce? p s).map (·.1.length)

/-- `a > b` if both are there. -/
def after (a b : Option Nat) : Bool :=
  match a, b with
  | some x, some y => x > y
  | _, _ => false

/-- src/core/package_validation/rules.rs 232-271. -/
def checkRelOrder (rels : List Relationship) : List Issue :=
  let path := c!"ppt/_rels/presentation.xml.rels"
  let xml := joinStr c!" " (rels.map fun r => c!"Id=\"" ++ r.id ++ c!"\" Target=\"" ++ r.target ++ c!"\"")
  issueIf (!containsStr c!"Id=\"rId1\"" xml || !containsStr c!"slideMaster" xml) .relationship path ++
  issueIf (after (findAt c!"slides/slide" xml) (findAt c!"presProps" xml)) .relationship path ++
  issueIf (after (findAt c!"theme/theme1" xml) (findAt c!"tableStyles" xml)) .relationship path

/-- src/core/package_validation/rules.rs 174-200: the first slide. `first_slide_rel_id` is 2 whatever
masters there are. -/
def checkFirstSlide (pres : Str) (count : Nat) : List Issue :=
  if count > 0 then
    issueIf (!containsStr c!"id=\"256\"" pres) .presentation c!"ppt/presentation.xml" ++
    issueIf (containsStr c!"<p:sldIdLst>" pres && !containsStr c!"r:id=\"rId2\"" pres) .presentation
      c!"ppt/presentation.xml"
  else []

/-- Whether an id leads to a part whose name contains a mark (rules.rs 205-213, 302-310). -/
def leadsInto (rels : List Relationship) (mark id : Str) : Bool :=
  match lastById rels id with
  | some r => containsStr mark r.resolved
  | none => false

/-- src/core/package_validation/rules.rs 158-230. -/
def checkPresentationStructure (a : Archive) : List Issue :=
  match readPart a c!"ppt/presentation.xml" with
  | none => []
  | some pres =>
    let rels := relationships a c!"ppt/_rels/presentation.xml.rels"
    let count := matchCount c!"<p:sldId " pres
    checkFirstSlide pres count ++ checkRelOrder rels ++
    (extractAttrValues pres c!"p:sldId" c!"r:id").flatMap (fun id =>
      issueIf (!leadsInto rels c!"/slides/slide" id) .presentation c!"ppt/presentation.xml") ++
    issueIf ((a.filter fun e => isSlidePart e.1).length != count) .presentation c!"ppt/presentation.xml"

/-- src/core/package_validation/rules.rs 316-339. The elements looked for have no `p:` in their names. -/
def checkMasterIds (pres master : Str) : List Issue :=
  let layoutIds := extractAttrValues master c!"p:sldLayoutId" c!"id"
  (extractAttrValues pres c!"notesMasterId" c!"id" ++ extractAttrValues pres c!"handoutMasterId" c!"id").flatMap
    fun id => issueIf (layoutIds.contains id) .slideMaster c!"ppt/presentation.xml"

/-- src/core/package_validation/rules.rs 273-314. -/
def checkSlideMaster (a : Archive) : List Issue :=
  let path := c!"ppt/slideMasters/slideMaster1.xml"
  match readPart a path with
  | none => []
  | some master =>
    issueIf (!containsStr c!"<p:txStyles>" master) .slideMaster path ++
    match readPart a c!"ppt/presentation.xml" with
    | none => []
    | some pres =>
      let rels := relationships a c!"ppt/slideMasters/_rels/slideMaster1.xml.rels"
      checkMasterIds pres master ++
      (extractAttrValues master c!"p:sldLayoutId" c!"r:id").flatMap fun id =>
        issueIf (!leadsInto rels c!"slideLayout" id) .slideMaster path

/-- src/core/package_validation/rules.rs 341-359. The size is that of the text; a theme that is not UTF-8
is left out. -/
def checkTheme (a : Archive) : List Issue :=
  match readPart a c!"ppt/theme/theme1.xml" with
  | none => []
  | some t => issueIf (utf8Len t < 7000) .theme c!"ppt/theme/theme1.xml"

/-- `s.trim_start_matches(p)`, at most `fuel` times. -/
def trimStartFuel (p : Str) : Nat → Str → Str
  | 0, s => s
  | fuel + 1, s =>
    match stripPrefix? p s with
    | some r => trimStartFuel p fuel r
    | none => s

/-- `s.trim_start_matches(p)` for a non-empty `p`. -/
def trimStartMatches (p s : Str) : Str := trimStartFuel p s.length s

/-- `s.trim_end_matches(p)` for a non-empty `p`. -/
def trimEndMatches (p s : Str) : Str := (trimStartMatches p.reverse s.reverse).reverse

/-- The relationship part of a chart, rules.rs 374. -/
def chartRelsPath (path : Str) : Str := replaceStr c!"ppt/charts/" c!"ppt/charts/_rels/" path ++ c!".rels"

/-- src/core/package_validation/rules.rs 373-414: one chart. -/
def checkChart (a : Archive) (path : Str) : List Issue :=
  let relsPath := chartRelsPath path
  if !hasPart a relsPath then [⟨.chart, path⟩]
  else
    issueIf (!(relationships a relsPath).any fun r => containsStr c!"embeddings/" r.target) .chart relsPath ++
    (match readPart a path with
      | some xml => issueIf (!containsStr c!"<c:externalData" xml) .chart path
      | none => []) ++
    let idx := trimEndMatches c!".xml" (trimStartMatches c!"ppt/charts/chart" path)
    issueIf (!hasPart a (c!"ppt/embeddings/Microsoft_Excel_Sheet" ++ idx ++ c!".xlsx")) .chart path

/-- src/core/package_validation/rules.rs 361-415. -/
def checkChartPackages (a : Archive) : List Issue :=
  (a.filter fun e => startsWith c!"ppt/charts/chart" e.1 && endsWith c!".xml" e.1).flatMap
    fun e => checkChart a e.1

/-- The relationship part of a slide, rules.rs 430. -/
def slideRelsPath (path : Str) : Str := replaceStr c!"ppt/slides/" c!"ppt/slides/_rels/" path ++ c!".rels"

/-- src/core/package_validation/rules.rs 441-461: one reference of a slide. -/
def checkReference (a : Archive) (path : Str) (rels : List Relationship) (id : Str) : List Issue :=
  match lastById rels id with
  | none => [⟨.slide, path⟩]
  | some r => if r.targetMode = c!"External" then [] else issueIf (!hasPart a r.resolved) .slide path

/-- src/core/package_validation/rules.rs 463-472: an issue for every id seen before. -/
def repeatedIds (path : Str) : List Str → List Str → List Issue
  | _, [] => []
  | seen, id :: l => issueIf (seen.contains id) .slide path ++ repeatedIds path (id :: seen) l

/-- src/core/package_validation/rules.rs 429-473: one slide. -/
def checkSlide (a : Archive) (path : Str) : List Issue :=
  let rels := relationships a (slideRelsPath path)
  match readPart a path with
  | none => []
  | some xml =>
    (extractRelReferenceIds xml).flatMap (checkReference a path rels) ++
    repeatedIds path [] (extractAttrValues xml c!"p:cNvPr" c!"id")

/-- src/core/package_validation/rules.rs 417-474. -/
def checkSlideRelationships (a : Archive) : List Issue :=
  (a.filter fun e => isSlidePart e.1).flatMap fun e => checkSlide a e.1

/-- src/core/package_validation/rules.rs 476-514. -/
def checkHandoutPackage (a : Archive) : List Issue :=
  let path := c!"ppt/handoutMasters/handoutMaster1.xml"
  let relsPath := c!"ppt/handoutMasters/_rels/handoutMaster1.xml.rels"
  if !hasPart a path then []
  else
    (match readPart a c!"ppt/presProps.xml" with
      | some t => issueIf (containsStr c!"<p:prnPr" t) .presentation c!"ppt/presProps.xml"
      | none => []) ++
    issueIf (!(relationships a relsPath).any fun r => containsStr c!"theme/theme3.xml" r.resolved) .relationship
      relsPath ++
    match readPart a path with
    | some t => issueIf (!containsStr c!"<p:bg>" t) .slideMaster path
    | none => []

/-- src/core/package_validation/rules.rs 516-545. -/
def checkNotesMaster (a : Archive) : List Issue :=
  let path := c!"ppt/notesMasters/notesMaster1.xml"
  let relsPath := c!"ppt/notesMasters/_rels/notesMaster1.xml.rels"
  if !hasPart a path then []
  else
    issueIf (!(relationships a relsPath).any fun r => containsStr c!"theme/theme2.xml" r.resolved) .relationship
      relsPath ++
    match readPart a path with
    | some t => issueIf (!containsStr c!"<p:bg>" t) .slideMaster path
    | none => []

/-- src/core/package_validation/rules.rs 547-565. -/
def checkNotesSlides (a : Archive) : List Issue :=
  (relationshipParts a).flatMap fun p =>
    if startsWith c!"ppt/slides/_rels/" p.1 then
      p.2.flatMap fun r =>
        issueIf (containsStr c!"notesSlides/notesSlide" r.resolved && !hasPart a r.resolved) .slide p.1
    else []

/-- `validate_package`, src/core/package_validation/rules.rs 33-51. -/
def validatePackage (a : Archive) : List Issue :=
  checkRequiredParts a ++ checkXmlParts a ++ checkRelationshipTargets a ++ checkContentTypes a ++
  checkPresentationStructure a ++ checkSlideMaster a ++ checkTheme a ++ checkChartPackages a ++
  checkSlideRelationships a ++ checkNotesSlides a ++ checkHandoutPackage a ++ checkNotesMaster a

end PptRs.Validate
