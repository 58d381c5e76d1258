import Verif.Model.Builder
import Verif.Spec.Xml

/-!
# Specification of generated packages

Which parts a deck consists of, how a reader finds a part's content type and where a relationship
leads, said without reference to how the builder writes them.
-/

namespace PptRs.Spec

open PptRs

/-- The parts with text in the notes field. -/
def numNotes (slides : List SlideIn) : Nat := slides.countP (·.notes.isSome)

/-- The slides with ink. -/
def numInk (slides : List SlideIn) : Nat := slides.countP (·.ink)

/-- The number of charts of all slides. -/
def numCharts (slides : List SlideIn) : Nat := (slides.map (·.charts)).sum

/-- All images of a deck that have data, in slide order. -/
def allImages (slides : List SlideIn) : List (List UInt8 × Str) :=
  slides.flatMap fun s => s.images.filterMap fun i => i.bytes.map fun b => (b, i.ext)

/-- The images of a deck that have data, each once, in order of first appearance. -/
def distinctImages (slides : List SlideIn) : List (List UInt8 × Str) := (allImages slides).eraseDups

/-- The media parts, numbered from 1. -/
def mediaParts (images : List (List UInt8 × Str)) : List PartName :=
  (images.zipIdx 1).map fun e => .media e.2 e.1.2

/-- The parts of a deck without a template. -/
def expectedParts (d : Deck) (st : BuildSettings) : List PartName :=
  [.contentTypes, .rootRels, .presRels, .presentation, .presProps, .viewProps, .tableStyles,
    .core, .app, .master, .masterRels, .theme 1] ++
  (List.range' 1 7).map .layout ++ (List.range' 1 7).map .layoutRels ++
  (List.range' 1 d.count).map .slide ++ (List.range' 1 d.count).map .slideRels ++
  (List.range' 1 (numNotes d.slides)).map .notes ++
  (List.range' 1 (numNotes d.slides)).map .notesRels ++
  (if numNotes d.slides = 0 then [] else [.notesMaster, .notesMasterRels, .theme 2]) ++
  (if st.handout then [.handoutMaster, .handoutRels, .theme 3] else []) ++
  (List.range' 1 (numCharts d.slides)).map .chart ++
  (List.range' 1 (numCharts d.slides)).map .chartRels ++
  (List.range' 1 (numCharts d.slides)).map .embedding ++
  (List.range' 1 (numInk d.slides)).map .ink ++
  mediaParts (distinctImages d.slides) ++
  ((st.fonts.getD []).map fun f => .font f.fileName) ++
  (if st.signature then [.sigOrigin, .sig] else [])

/-- The names of archive entries. -/
def names (l : List Entry) : List PartName := l.map (·.name)

/-- The text after the last dot, or nothing. -/
def extensionOf (path : Str) : Str :=
  match (splitChar '.' path).reverse with
  | ext :: _ :: _ => ext
  | _ => []

/-- How a reader finds a part's content type: an `Override` for its name, otherwise the `Default`
for its extension. -/
def typeOf (ct : ContentTypes) (path : Str) : Option ContentType :=
  match ct.overrides.find? fun e => e.1 = '/' :: path with
  | some e => some e.2
  | none => (ct.defaults.find? fun e => e.1 = extensionOf path).map (·.2)

/-- The relationship with a given id. -/
def relById (l : List RelEntry) (id : Str) : Option RelEntry := l.find? fun r => r.id = id

/-- The part an internal relationship leads to: the target text is read as an XML attribute and
followed from the folder of the source part. -/
def leadsTo (relsPart : PartName) (r : RelEntry) : Option Str :=
  (readText r.target).map (resolveRelTarget (relsSourceDir relsPart.path))

end PptRs.Spec
