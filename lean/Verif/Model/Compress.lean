import Verif.Model.Utf8
import Verif.Model.StrReplace

/-!
# Compression of packages, src/opc/compress.rs
-/

namespace PptRs

/-- The blanks matched in `minimize_xml`, src/opc/compress.rs 399. -/
def isBlank (c : Char) : Bool := c = ' ' || c = '\n' || c = '\t' || c = '\r'

/-- The local variables of `minimize_xml`, src/opc/compress.rs 371-374; `out` is the result so far,
reversed. -/
structure MinState where
  inTag : Bool
  inStr : Bool
  prev : Char
  out : Str
deriving DecidableEq, Repr

/-- src/opc/compress.rs 386-394: the result before `<` is pushed. `pop` on an empty string does nothing. -/
def MinState.popBlank (s : MinState) : Str :=
  if s.prev = ' ' || s.prev = '\n' || s.prev = '\t' then s.out.tail else s.out

/-- src/opc/compress.rs 376-410. -/
def MinState.step (s : MinState) (ch : Char) : MinState :=
  if ch = '"' then { s with inStr := !s.inStr, out := ch :: s.out, prev := ch }
  else if ch = '<' && !s.inStr then { s with inTag := true, out := ch :: s.popBlank, prev := ch }
  else if ch = '>' && !s.inStr then { s with inTag := false, out := ch :: s.out, prev := ch }
  else if isBlank ch && !s.inTag && !s.inStr then
    { s with out := if s.prev ≠ ' ' then ' ' :: s.out else s.out, prev := ch }
  else { s with out := ch :: s.out, prev := ch }

def MinState.init : MinState := ⟨false, false, ' ', []⟩

/-- `minimize_xml`, src/opc/compress.rs 370-413. -/
def minimizeXml (xml : Str) : Str := (xml.foldl MinState.step MinState.init).out.reverse

/-- `Path::file_name` on a Unix system: the last component, unless it is `..`. (A path consisting only
of `.` is not treated specially.) -/
def pathFileName (p : Str) : Option Str :=
  match ((splitChar '/' p).filter fun x => x ≠ [] && x ≠ c!".").getLast? with
  | none => none
  | some x => if x = c!".." then none else some x

/-- src/opc/compress.rs 284. -/
def isMediaPath (p : Str) : Bool := startsWith c!"ppt/media/" p

/-- src/opc/compress.rs 293. -/
def isSlideXmlPath (p : Str) : Bool := startsWith c!"ppt/slides/slide" p && endsWith c!".xml" p

/-- src/opc/compress.rs 297-301. `media_path[4..]` cannot panic, the path begins with `ppt/media/`. -/
def mediaMentioned (content media : Str) : Bool :=
  containsStr ((pathFileName media).getD []) content || containsStr (media.drop 4) content

/-- src/opc/compress.rs 293-305. -/
def referencedStep (p : Package) (media acc : List Str) (path : Str) : List Str :=
  if isSlideXmlPath path then
    match p.getPartString path with
    | some content => media.foldl (fun acc m => if mediaMentioned content m then acc ++ [m] else acc) acc
    | none => acc
  else acc

/-- src/opc/compress.rs 291-306. -/
def referencedMedia (p : Package) (media : List Str) : List Str :=
  p.partPaths.foldl (referencedStep p media) []

/-- `remove_unused_media`, src/opc/compress.rs 280-317: the package afterwards and the number removed. -/
def removeUnusedMedia (p : Package) : Package × Nat :=
  let media := p.partPaths.filter isMediaPath
  let referenced := referencedMedia p media
  media.foldl (fun s m => if referenced.contains m then s else ((s.1.removePart m).1, s.2 + 1)) (p, 0)

/-- `remove_document_properties`, src/opc/compress.rs 320-329. -/
def removeDocumentProperties (p : Package) : Package :=
  let p := (p.removePart c!"docProps/core.xml").1
  let p := (p.removePart c!"docProps/app.xml").1
  let p := (p.removePart c!"docProps/custom.xml").1
  (p.removePart c!"docProps/thumbnail.jpeg").1

/-- src/opc/compress.rs 341-344. -/
def removeNotesStep (q : Package) (path : Str) : Package :=
  let q := (q.removePart path).1
  (q.removePart (replaceStr c!"notesSlides/" c!"notesSlides/_rels/" path ++ c!".rels")).1

/-- `remove_notes_slides`, src/opc/compress.rs 332-348. -/
def removeNotesSlides (p : Package) : Package :=
  (p.partPaths.filter (startsWith c!"ppt/notesSlides/")).foldl removeNotesStep p

/-- src/opc/compress.rs 360-363. -/
def optimizeStep (q : Package) (path : Str) : Package :=
  match q.getPartString path with
  | some content => q.addPart path (encode (minimizeXml content))
  | none => q

/-- `optimize_xml_content`, src/opc/compress.rs 351-367. -/
def optimizeXmlContent (p : Package) : Package :=
  (p.partPaths.filter fun x => endsWith c!".xml" x || endsWith c!".rels" x).foldl optimizeStep p

/-- src/opc/compress.rs 59-74; the level and the target size do not influence the package. -/
structure CompressionOptions where
  removeUnusedMedia : Bool
  removeProperties : Bool
  removeNotes : Bool
  removeComments : Bool
  optimizeXml : Bool
deriving DecidableEq, Repr

/-- `CompressionOptions::maximum`, src/opc/compress.rs 139-149. -/
def CompressionOptions.maximum : CompressionOptions := ⟨true, true, true, true, true⟩

/-- The package part of `compress_pptx`, src/opc/compress.rs 212-233: what is saved, and the number of
media files reported as removed. -/
def compressPackage (o : CompressionOptions) (p : Package) : Package × Nat :=
  let (p, n) := if o.removeUnusedMedia then removeUnusedMedia p else (p, 0)
  let p := if o.removeProperties then removeDocumentProperties p else p
  let p := if o.removeNotes then removeNotesSlides p else p
  (if o.optimizeXml then optimizeXmlContent p else p, n)

/-- src/opc/compress.rs 465-482, without the size of the archive file. -/
structure PptxAnalysis where
  imagesSize : Nat
  xmlSize : Nat
  otherSize : Nat
  imageCount : Nat
  slideCount : Nat
  mediaCount : Nat
deriving DecidableEq, Repr

/-- src/opc/compress.rs 430-450. -/
def analyzeStep (a : PptxAnalysis) (path : Str) (size : Nat) : PptxAnalysis :=
  if startsWith c!"ppt/media/" path then
    if endsWith c!".png" path || endsWith c!".jpg" path || endsWith c!".jpeg" path then
      { a with imagesSize := a.imagesSize + size, imageCount := a.imageCount + 1 }
    else { a with mediaCount := a.mediaCount + 1, otherSize := a.otherSize + size }
  else if endsWith c!".xml" path || endsWith c!".rels" path then
    if startsWith c!"ppt/slides/slide" path && endsWith c!".xml" path then
      { a with xmlSize := a.xmlSize + size, slideCount := a.slideCount + 1 }
    else { a with xmlSize := a.xmlSize + size }
  else { a with otherSize := a.otherSize + size }

/-- `analyze_pptx`, src/opc/compress.rs 416-463. -/
def analyzePackage (p : Package) : PptxAnalysis :=
  p.partPaths.foldl (fun a path =>
    match p.getPart path with
    | some data => analyzeStep a path data.length
    | none => a) ⟨0, 0, 0, 0, 0, 0⟩

end PptRs
