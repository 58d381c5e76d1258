import Verif.Model.Utf8
import Verif.Model.StrReplace
import Verif.Model.Rels

/-!
# Repair of packages, src/oxml/repair.rs

Hash sets are lists without duplicates; the order in which their elements are visited is not part of the
model (theorems about issues do not depend on it). Numbers are natural numbers: an id of 2^32 - 1 would
overflow in the code.
-/

namespace PptRs

/-- A line without the carriage return at its end. -/
def stripCr (l : Str) : Str := if l.getLast? = some '\r' then l.dropLast else l

/-- `str::lines`. -/
def strLines (s : Str) : List Str :=
  (splitChar '\n' s).dropLast.map stripCr ++
    match (splitChar '\n' s).getLast? with
    | none => []
    | some l => if l = [] then [] else [l]

/-- src/oxml/repair.rs 21-44. -/
inductive RepairIssue
  | missingPart (path : Str)
  | invalidXml (path : Str)
  | brokenRelationship (source target relId : Str)
  | missingSlideReference (slidePath : Str)
  | orphanSlide (slidePath : Str)
  | invalidContentType (path : Str)
  | corruptedEntry (path : Str)
  | missingNamespace (path ns : Str)
  | emptyRequiredElement (path element : Str)
deriving DecidableEq, Repr

/-- `RepairIssue::is_repairable`, src/oxml/repair.rs 63-75. -/
def RepairIssue.isRepairable : RepairIssue → Bool
  | .corruptedEntry _ => false
  | _ => true

/-- `RepairIssue::severity`, src/oxml/repair.rs 48-60. -/
def RepairIssue.severity : RepairIssue → Nat
  | .missingPart _ => 3
  | .invalidXml _ => 3
  | .brokenRelationship .. => 2
  | .missingSlideReference _ => 2
  | .orphanSlide _ => 1
  | .invalidContentType _ => 2
  | .corruptedEntry _ => 3
  | .missingNamespace .. => 2
  | .emptyRequiredElement .. => 1

/-- src/oxml/repair.rs 123-132. -/
structure RepairResult where
  found : List RepairIssue
  repaired : List RepairIssue
  unrepaired : List RepairIssue
  isValid : Bool
deriving DecidableEq, Repr

/-- src/oxml/repair.rs 150-155. -/
def RepairResult.criticalIssues (r : RepairResult) : Nat := (r.found.filter fun i => i.severity = 3).length

/-- src/oxml/repair.rs 158-160. -/
def RepairResult.fullyRepaired (r : RepairResult) : Bool := r.unrepaired.isEmpty

namespace Repair

/-! ### Validation -/

/-- `REQUIRED_PARTS_REPAIR`, src/core/validation.rs 18-26. -/
def requiredParts : List Str :=
  [c!"[Content_Types].xml", c!"_rels/.rels", c!"ppt/presentation.xml", c!"ppt/_rels/presentation.xml.rels"]

/-- `check_required_parts`, src/oxml/repair.rs 266-278 with src/core/validation.rs 150-162. -/
def checkRequiredParts (p : Package) : List RepairIssue :=
  (requiredParts.filter fun x => !p.hasPart x).map .missingPart

/-- The local variables of the scanner of `validate_well_formed_xml`, src/core/validation.rs 108-110. -/
structure WfState where
  inTag : Bool
  inString : Bool
  stringChar : Char
deriving DecidableEq, Repr

/-- src/core/validation.rs 112-129. -/
def WfState.step (s : WfState) (c : Char) : WfState :=
  if (c = '"' || c = '\'') && s.inTag && !s.inString then { s with inString := true, stringChar := c }
  else if s.inString && c = s.stringChar then { s with inString := false }
  else if c = '<' && !s.inString then { s with inTag := true }
  else if c = '>' && !s.inString then { s with inTag := false }
  else s

/-- `validate_well_formed_xml`, src/core/validation.rs 102-132: whether the text is accepted. The scanner
runs over the text, but its final state is not looked at. -/
def validateWellFormedXml (xml : Str) : Bool :=
  let trimmed := trim xml
  if trimmed = [] then false
  else
    let _state := trimmed.foldl WfState.step ⟨false, false, '"'⟩
    true

/-- `check_xml_validity`, src/oxml/repair.rs 280-297. -/
def checkXmlValidity (p : Package) : List RepairIssue :=
  (p.partPaths.filter fun x => endsWith c!".xml" x || endsWith c!".rels" x).flatMap fun path =>
    match p.getPartString path with
    | some xml => if validateWellFormedXml xml then [] else [.invalidXml path]
    | none => []

/-- `extract_attribute`, src/oxml/repair.rs 354-363. -/
def extractAttribute (line attr : Str) : Option Str :=
  (splitOnce? (attr ++ c!"=\"") line).bind fun a => (splitOnce? c!"\"" a.2).map (·.1)

/-- `trim_start_matches("../")`. -/
def trimUps : Nat → Str → Str
  | 0, s => s
  | fuel + 1, s =>
    match stripPrefix? c!"../" s with
    | some r => trimUps fuel r
    | none => s

/-- `trim_end_matches('/')`. -/
def trimEndSlash (s : Str) : Str := (trimStartChar '/' s.reverse).reverse

/-- `resolve_path`, src/oxml/repair.rs 365-388. -/
def resolvePath (relsPath target : Str) : Str :=
  match stripPrefix? c!"/" target with
  | some s => s
  | none =>
    let relsDir := ((rsplitOnceChar? '/' relsPath).map (·.1)).getD []
    let baseDir := trimEndSlash (replaceStr c!"_rels" [] relsDir)
    if startsWith c!"../" target then
      ((rsplitOnceChar? '/' baseDir).map (·.1)).getD [] ++ c!"/" ++ trimUps target.length target
    else if baseDir = [] then target
    else baseDir ++ c!"/" ++ target

/-- src/oxml/repair.rs 330-349: the issue of one line of a relationship part. -/
def checkRelsLine (p : Package) (relsPath line : Str) : List RepairIssue :=
  if containsStr c!"Relationship" line && containsStr c!"Target=" line then
    match extractAttribute line c!"Target" with
    | none => []
    | some target =>
      let relId := (extractAttribute line c!"Id").getD []
      if startsWith c!"http://" target || startsWith c!"https://" target then []
      else
        let fullPath := resolvePath relsPath target
        if !p.hasPart fullPath && !containsStr c!".." target then [.brokenRelationship relsPath fullPath relId]
        else []
  else []

/-- `check_rels_file`, src/oxml/repair.rs 324-352. -/
def checkRelsFile (p : Package) (relsPath : Str) : List RepairIssue :=
  match p.getPartString relsPath with
  | none => []
  | some xml => (strLines xml).flatMap (checkRelsLine p relsPath)

/-- `check_relationships`, src/oxml/repair.rs 303-322. -/
def checkRelationships (p : Package) : List RepairIssue :=
  checkRelsFile p c!"_rels/.rels" ++ checkRelsFile p c!"ppt/_rels/presentation.xml.rels" ++
    (p.partPaths.filter fun x => startsWith c!"ppt/slides/_rels/" x && endsWith c!".xml.rels" x).flatMap
      (checkRelsFile p)

/-- src/oxml/repair.rs 398-410: the slide that a line of `presentation.xml.rels` refers to. -/
def referencedSlide (line : Str) : Option Str :=
  (extractAttribute line c!"Type").bind fun t =>
    if t ≠ relTypeBase ++ c!"slide" then none
    else (extractAttribute line c!"Target").map fun target =>
      match stripPrefix? c!"/" target with
      | some s => s
      | none => c!"ppt/" ++ target

/-- src/oxml/repair.rs 392-412. -/
def referencedSlides (p : Package) : List Str :=
  match p.getPartString c!"ppt/_rels/presentation.xml.rels" with
  | none => []
  | some xml => ((strLines xml).filterMap referencedSlide).eraseDups

/-- src/oxml/repair.rs 415-423. -/
def actualSlides (p : Package) : List Str :=
  p.partPaths.filter fun x =>
    startsWith c!"ppt/slides/slide" x && endsWith c!".xml" x && !containsStr c!"_rels" x

/-- `check_slide_references`, src/oxml/repair.rs 390-442. -/
def checkSlideReferences (p : Package) : List RepairIssue :=
  ((referencedSlides p).filter fun s => !(actualSlides p).contains s).map .orphanSlide ++
    ((actualSlides p).filter fun s => !(referencedSlides p).contains s).map .missingSlideReference

/-- `path.rsplit('.').next()`. -/
def lastDot (path : Str) : Str := ((rsplitOnceChar? '.' path).map (·.2)).getD path

/-- src/oxml/repair.rs 451-464. -/
def lacksType (xml part : Str) : Bool :=
  part ≠ c!"[Content_Types].xml" && !containsStr (c!"PartName=\"/" ++ part ++ c!"\"") xml &&
    !containsStr (c!"Extension=\"" ++ lastDot part ++ c!"\"") xml && !endsWith c!".rels" part

/-- `check_content_types`, src/oxml/repair.rs 444-467. -/
def checkContentTypes (p : Package) : List RepairIssue :=
  match p.getPartString c!"[Content_Types].xml" with
  | none => []
  | some xml => (p.partPaths.filter (lacksType xml)).map .invalidContentType

/-- `validate`, src/oxml/repair.rs 190-209. -/
def validate (p : Package) : List RepairIssue :=
  checkRequiredParts p ++ checkXmlValidity p ++ checkRelationships p ++ checkSlideReferences p ++ checkContentTypes p

/-! ### Repairs -/

/-- `infer_content_type`, src/oxml/repair.rs 766-784. -/
def inferContentType (path : Str) : Str :=
  if containsStr c!"slideLayout" path then
    c!"application/vnd.openxmlformats-officedocument.presentationml.slideLayout+xml"
  else if containsStr c!"slideMaster" path then
    c!"application/vnd.openxmlformats-officedocument.presentationml.slideMaster+xml"
  else if containsStr c!"notesSlide" path then
    c!"application/vnd.openxmlformats-officedocument.presentationml.notesSlide+xml"
  else if startsWith c!"ppt/slides/slide" path && endsWith c!".xml" path then
    c!"application/vnd.openxmlformats-officedocument.presentationml.slide+xml"
  else if containsStr c!"theme" path then
    c!"application/vnd.openxmlformats-officedocument.theme+xml"
  else if containsStr c!"presentation.xml" path then
    c!"application/vnd.openxmlformats-officedocument.presentationml.presentation.main+xml"
  else if endsWith c!".xml" path then c!"application/xml"
  else c!"application/octet-stream"

/-- The `Override` line written by src/oxml/repair.rs 754-757 and 841-844. -/
def overrideLine (path : Str) : Str :=
  c!"  <Override PartName=\"/" ++ path ++ c!"\" ContentType=\"" ++ inferContentType path ++ c!"\"/>"

/-- `generate_content_types`, src/oxml/repair.rs 826-850. -/
def generateContentTypes (p : Package) : Str :=
  c!"<?xml version=\"1.0\" encoding=\"UTF-8\" standalone=\"yes\"?>\n<Types xmlns=\"http://schemas.openxmlformats.org/package/2006/content-types\">\n  <Default Extension=\"rels\" ContentType=\"application/vnd.openxmlformats-package.relationships+xml\"/>\n  <Default Extension=\"xml\" ContentType=\"application/xml\"/>\n  <Default Extension=\"jpeg\" ContentType=\"image/jpeg\"/>\n  <Default Extension=\"png\" ContentType=\"image/png\"/>\n" ++
    (p.partPaths.filter fun x => endsWith c!".xml" x && x ≠ c!"[Content_Types].xml").flatMap
      (fun path => overrideLine path ++ c!"\n") ++ c!"</Types>"

/-- `generate_package_rels`, src/oxml/repair.rs 852-859. -/
def packageRels : Str :=
  c!"<?xml version=\"1.0\" encoding=\"UTF-8\" standalone=\"yes\"?>\n<Relationships xmlns=\"http://schemas.openxmlformats.org/package/2006/relationships\">\n  <Relationship Id=\"rId1\" Type=\"http://schemas.openxmlformats.org/officeDocument/2006/relationships/officeDocument\" Target=\"ppt/presentation.xml\"/>\n  <Relationship Id=\"rId2\" Type=\"http://schemas.openxmlformats.org/package/2006/relationships/metadata/core-properties\" Target=\"docProps/core.xml\"/>\n  <Relationship Id=\"rId3\" Type=\"http://schemas.openxmlformats.org/officeDocument/2006/relationships/extended-properties\" Target=\"docProps/app.xml\"/>\n</Relationships>"

/-- `generate_presentation_xml`, src/oxml/repair.rs 861-871. -/
def presentationXml : Str :=
  c!"<?xml version=\"1.0\" encoding=\"UTF-8\" standalone=\"yes\"?>\n<p:presentation xmlns:a=\"http://schemas.openxmlformats.org/drawingml/2006/main\" xmlns:r=\"http://schemas.openxmlformats.org/officeDocument/2006/relationships\" xmlns:p=\"http://schemas.openxmlformats.org/presentationml/2006/main\">\n  <p:sldMasterIdLst>\n    <p:sldMasterId id=\"2147483648\" r:id=\"rId1\"/>\n  </p:sldMasterIdLst>\n  <p:sldIdLst/>\n  <p:sldSz cx=\"9144000\" cy=\"6858000\"/>\n  <p:notesSz cx=\"6858000\" cy=\"9144000\"/>\n</p:presentation>"

/-- `generate_presentation_rels`, src/oxml/repair.rs 873-882. -/
def presentationRels : Str :=
  c!"<?xml version=\"1.0\" encoding=\"UTF-8\" standalone=\"yes\"?>\n<Relationships xmlns=\"http://schemas.openxmlformats.org/package/2006/relationships\">\n  <Relationship Id=\"rId1\" Type=\"http://schemas.openxmlformats.org/officeDocument/2006/relationships/slideMaster\" Target=\"slideMasters/slideMaster1.xml\"/>\n  <Relationship Id=\"rId2\" Type=\"http://schemas.openxmlformats.org/officeDocument/2006/relationships/theme\" Target=\"theme/theme1.xml\"/>\n  <Relationship Id=\"rId3\" Type=\"http://schemas.openxmlformats.org/officeDocument/2006/relationships/presProps\" Target=\"presProps.xml\"/>\n  <Relationship Id=\"rId4\" Type=\"http://schemas.openxmlformats.org/officeDocument/2006/relationships/viewProps\" Target=\"viewProps.xml\"/>\n  <Relationship Id=\"rId5\" Type=\"http://schemas.openxmlformats.org/officeDocument/2006/relationships/tableStyles\" Target=\"tableStyles.xml\"/>\n</Relationships>"

/-- `repair_missing_part`, src/oxml/repair.rs 497-514. -/
def repairMissingPart (p : Package) (path : Str) : Package × Bool :=
  if path = c!"[Content_Types].xml" then (p.addPart path (encode (generateContentTypes p)), true)
  else if path = c!"_rels/.rels" then (p.addPart path (encode packageRels), true)
  else if path = c!"ppt/presentation.xml" then (p.addPart path (encode presentationXml), true)
  else if path = c!"ppt/_rels/presentation.xml.rels" then (p.addPart path (encode presentationRels), true)
  else (p, false)

/-- `char::is_alphanumeric`; `uni` decides for characters beyond ASCII. -/
def isAlnum (uni : Char → Bool) (c : Char) : Bool := if c.toNat < 128 then c.isAlphanum else uni c

/-- The entities accepted by src/oxml/repair.rs 556-561. -/
def isKnownEntity (e : Str) : Bool :=
  e = c!"&amp;" || e = c!"&lt;" || e = c!"&gt;" || e = c!"&quot;" || e = c!"&apos;" || startsWith c!"&#" e

/-- The inner loop, src/oxml/repair.rs 553-572, on the text behind `&`: the characters read (`temp_chars`;
`entity` is `&` followed by them), whether a known entity was completed, and the rest of the text. -/
def entityLoop (uni : Char → Bool) (temp : Str) : Str → Str × Bool × Str
  | [] => (temp, false, [])
  | c :: s =>
    if c = ';' then (temp, isKnownEntity ('&' :: temp ++ c!";"), s)
    else if isAlnum uni c || c = '#' || c = 'x' then
      if utf8Len ('&' :: temp ++ [c]) > 10 then (temp ++ [c], false, s) else entityLoop uni (temp ++ [c]) s
    else (temp, false, c :: s)

/-- The outer loop, src/oxml/repair.rs 546-585. The fuel is the length of the text. -/
def ampLoop (uni : Char → Bool) : Nat → Str → Str
  | 0, _ => []
  | _ + 1, [] => []
  | fuel + 1, c :: s =>
    if c = '&' then
      let (temp, known, rest) := entityLoop uni [] s
      if known then '&' :: temp ++ c!";" ++ ampLoop uni fuel rest
      else c!"&amp;" ++ temp ++ ampLoop uni fuel rest
    else c :: ampLoop uni fuel s

/-- src/oxml/repair.rs 544-586. -/
def ampRepair (uni : Char → Bool) (xml : Str) : Str := ampLoop uni xml.length xml

def xmlDecl : Str := c!"<?xml version=\"1.0\" encoding=\"UTF-8\" standalone=\"yes\"?>\n"

/-- `attempt_xml_repair`, src/oxml/repair.rs 530-589. -/
def attemptXmlRepair (uni : Char → Bool) (xml : Str) : Str :=
  ampRepair uni (if startsWith c!"<?xml" (trim xml) then xml else xmlDecl ++ xml)

/-- `repair_invalid_xml`, src/oxml/repair.rs 516-528. -/
def repairInvalidXml (uni : Char → Bool) (p : Package) (path : Str) : Package × Bool :=
  match p.getPartString path with
  | some xml => (p.addPart path (encode (attemptXmlRepair uni xml)), true)
  | none => (p, true)

/-- src/oxml/repair.rs 602-608. -/
def dropRelLines (xml relId : Str) : Str :=
  joinStr c!"\n" ((strLines xml).filter fun l => !containsStr (c!"Id=\"" ++ relId ++ c!"\"") l)

/-- `repair_broken_relationship`, src/oxml/repair.rs 591-613. -/
def repairBrokenRelationship (p : Package) (source relId : Str) : Package × Bool :=
  match p.getPartString source with
  | some xml => (p.addPart source (encode (dropRelLines xml relId)), true)
  | none => (p, true)

/-- The loop shared by `find_max_rel_id` and `find_max_slide_id`, src/oxml/repair.rs 683-723. The fuel
bounds the number of matches. -/
def maxIdLoop (pat : Str) : Nat → Str → Nat → Nat
  | 0, _, m => m
  | fuel + 1, xml, m =>
    match splitOnce? pat xml with
    | none => m
    | some (_, r) =>
      match splitOnce? c!"\"" r with
      | none => m
      | some (num, rest) =>
        maxIdLoop pat fuel rest (match parseU32? num with | some n => max m n | none => m)

/-- `find_max_rel_id`, src/oxml/repair.rs 683-702. -/
def findMaxRelId (xml : Str) : Nat := maxIdLoop c!"Id=\"rId" (xml.length + 1) xml 0

/-- `find_max_slide_id`, src/oxml/repair.rs 704-723. -/
def findMaxSlideId (xml : Str) : Nat := maxIdLoop c!"<p:sldId id=\"" (xml.length + 1) xml 0

/-- src/oxml/repair.rs 653-675. -/
def addSlideText (xml relId : Str) : Str :=
  let entry := c!"<p:sldId id=\"" ++ dec (findMaxSlideId xml + 1) ++ c!"\" r:id=\"" ++ relId ++ c!"\"/>"
  if containsStr c!"</p:sldIdLst>" xml then replaceStr c!"</p:sldIdLst>" (entry ++ c!"\n</p:sldIdLst>") xml
  else if containsStr c!"<p:sldIdLst/>" xml then
    replaceStr c!"<p:sldIdLst/>" (c!"<p:sldIdLst>" ++ entry ++ c!"</p:sldIdLst>") xml
  else
    replaceStr c!"</p:sldMasterIdLst>" (c!"</p:sldMasterIdLst>\n<p:sldIdLst>" ++ entry ++ c!"</p:sldIdLst>") xml

/-- `add_slide_to_presentation`, src/oxml/repair.rs 648-681. -/
def addSlideToPresentation (p : Package) (relId : Str) : Package :=
  match p.getPartString c!"ppt/presentation.xml" with
  | some xml => p.addPart c!"ppt/presentation.xml" (encode (addSlideText xml relId))
  | none => p

/-- src/oxml/repair.rs 625-631. -/
def newRelLine (relId slidePath : Str) : Str :=
  c!"  <Relationship Id=\"" ++ relId ++ c!"\" Type=\"" ++ (relTypeBase ++ c!"slide") ++ c!"\" Target=\"" ++
    replaceStr c!"ppt/" [] slidePath ++ c!"\"/>"

/-- src/oxml/repair.rs 633-636. -/
def addRelText (xml slidePath : Str) : Str :=
  replaceStr c!"</Relationships>" (newRelLine (c!"rId" ++ dec (findMaxRelId xml + 1)) slidePath ++ c!"\n</Relationships>")
    xml

/-- `repair_missing_slide_reference`, src/oxml/repair.rs 615-646. -/
def repairMissingSlideReference (p : Package) (slidePath : Str) : Package × Bool :=
  match p.getPartString c!"ppt/_rels/presentation.xml.rels" with
  | some xml =>
    (addSlideToPresentation (p.addPart c!"ppt/_rels/presentation.xml.rels" (encode (addRelText xml slidePath)))
      (c!"rId" ++ dec (findMaxRelId xml + 1)), true)
  | none => (p, true)

/-- `repair_orphan_slide`, src/oxml/repair.rs 725-744. -/
def repairOrphanSlide (p : Package) (slidePath : Str) : Package × Bool :=
  match p.getPartString c!"ppt/_rels/presentation.xml.rels" with
  | some xml =>
    (p.addPart c!"ppt/_rels/presentation.xml.rels" (encode (joinStr c!"\n" ((strLines xml).filter fun l =>
      !containsStr (c!"Target=\"" ++ replaceStr c!"ppt/" [] slidePath ++ c!"\"") l))), true)
  | none => (p, true)

/-- `repair_invalid_content_type`, src/oxml/repair.rs 746-764. -/
def repairInvalidContentType (p : Package) (path : Str) : Package × Bool :=
  match p.getPartString c!"[Content_Types].xml" with
  | some xml =>
    (p.addPart c!"[Content_Types].xml" (encode (replaceStr c!"</Types>" (overrideLine path ++ c!"\n</Types>") xml)), true)
  | none => (p, true)

/-- src/oxml/repair.rs 791-796. -/
def nsDecl (ns : Str) : Option Str :=
  if ns = c!"p" then some c!"xmlns:p=\"http://schemas.openxmlformats.org/presentationml/2006/main\""
  else if ns = c!"a" then some c!"xmlns:a=\"http://schemas.openxmlformats.org/drawingml/2006/main\""
  else if ns = c!"r" then some c!"xmlns:r=\"http://schemas.openxmlformats.org/officeDocument/2006/relationships\""
  else none

/-- `repair_missing_namespace`, src/oxml/repair.rs 786-807. -/
def repairMissingNamespace (p : Package) (path ns : Str) : Package × Bool :=
  match p.getPartString path with
  | none => (p, true)
  | some xml =>
    match nsDecl ns with
    | none => (p, true)
    | some decl =>
      match splitOnce? c!">" xml with
      | none => (p, true)
      | some (a, b) =>
        if containsStr decl a then (p, true)
        else (p.addPart path (encode (a ++ c!" " ++ decl ++ c!">" ++ b)), true)

/-- `repair_empty_element`, src/oxml/repair.rs 809-822. -/
def repairEmptyElement (p : Package) (path element : Str) : Package × Bool :=
  match p.getPartString path with
  | none => (p, true)
  | some xml =>
    (p.addPart path (encode (replaceStr (c!"<" ++ element ++ c!"/>")
      (c!"<" ++ element ++ c!"></" ++ element ++ c!">") xml)), true)

/-- `repair_issue`, src/oxml/repair.rs 471-495: the package afterwards and whether `Ok` was returned. -/
def repairIssue (uni : Char → Bool) (p : Package) : RepairIssue → Package × Bool
  | .missingPart path => repairMissingPart p path
  | .invalidXml path => repairInvalidXml uni p path
  | .brokenRelationship source _ relId => repairBrokenRelationship p source relId
  | .missingSlideReference s => repairMissingSlideReference p s
  | .orphanSlide s => repairOrphanSlide p s
  | .invalidContentType path => repairInvalidContentType p path
  | .missingNamespace path ns => repairMissingNamespace p path ns
  | .emptyRequiredElement path e => repairEmptyElement p path e
  | .corruptedEntry _ => (p, false)

/-- src/oxml/repair.rs 224-233. -/
def repairStep (uni : Char → Bool) (s : Package × RepairResult) (issue : RepairIssue) : Package × RepairResult :=
  if issue.isRepairable then
    let (p, ok) := repairIssue uni s.1 issue
    if ok then (p, { s.2 with repaired := s.2.repaired ++ [issue] })
    else (p, { s.2 with unrepaired := s.2.unrepaired ++ [issue] })
  else (s.1, { s.2 with unrepaired := s.2.unrepaired ++ [issue] })

/-- `repair`, src/oxml/repair.rs 212-240: the package afterwards and the result. -/
def repair (uni : Char → Bool) (p : Package) : Package × RepairResult :=
  let found := validate p
  if found = [] then (p, ⟨[], [], [], true⟩)
  else
    let (q, r) := found.foldl (repairStep uni) (p, ⟨found, [], [], true⟩)
    (q, { r with isValid := (validate q).isEmpty })

end Repair

end PptRs
