import Verif.Model.Editor
import Verif.Spec.XmlQuery
import Verif.Spec.Builder

/-!
# Specification: editing a list of slides
-/

namespace PptRs.Spec

open PptRs

/-- A slide: the content of its part and of its relationship part, if it has one. -/
structure Slide where
  xml : Bytes
  rels : Option Bytes

/-- The slide that is created for some content. -/
def Slide.of (c : SlideText) : Slide := ⟨encode c.xml, some (encode Editor.newSlideRels)⟩

/-- What a call should do to the list of slides, and what it should return. -/
def editList (l : List Slide) : Editor.Op → List Slide × Option Nat
  | .add c => (l ++ [.of c], some l.length)
  | .insert i c => if i ≤ l.length then (l.take i ++ [.of c] ++ l.drop i, some i) else (l, none)
  | .update i c =>
    match l[i]? with
    | some s => (l.set i { s with xml := encode c.xml }, some 0)
    | none => (l, none)
  | .remove i => if i < l.length then (l.take i ++ l.drop (i + 1), some 0) else (l, none)
  | .duplicate i =>
    match l[i]? with
    | some s => (l.take (i + 1) ++ [{ s with rels := some (s.rels.getD []) }] ++ l.drop (i + 1), some (i + 1))
    | none => (l, none)
  | .reorder a b =>
    match l[a]? with
    | some s =>
      if b < l.length then
        let rest := l.take a ++ l.drop (a + 1)
        (rest.take b ++ [s] ++ rest.drop b, some 0)
      else (l, none)
    | none => (l, none)

/-- A part that is counted as a slide: directly in the slide folder and called `slide….xml`. -/
def IsSlideName (path : Str) : Prop :=
  ∃ m, path = c!"ppt/slides/slide" ++ m ++ c!".xml" ∧ ¬ ∃ a b, path = a ++ c!"_rels" ++ b

/-- The slides of a package are those of the list, in order: slide `i` of the list is in the part
`slide(i+1).xml` with its relationships beside it, and there are no other slide parts. -/
structure SlidesAre (p : Package) (l : List Slide) : Prop where
  slides : ∀ i, p.getPart (c!"ppt/slides/slide" ++ dec (i + 1) ++ c!".xml") = l[i]?.map (·.xml)
  rels : ∀ i, p.getPart (c!"ppt/slides/_rels/slide" ++ dec (i + 1) ++ c!".xml.rels")
    = l[i]?.bind (·.rels)
  only : ∀ path, IsSlideName path → (p.getPart path).isSome →
    ∃ i < l.length, path = c!"ppt/slides/slide" ++ dec (i + 1) ++ c!".xml"

/-- The names the editor uses while it moves a slide. -/
def NoTemps (p : Package) : Prop :=
  p.getPart c!"ppt/slides/_temp_slide.xml" = none ∧
    p.getPart c!"ppt/slides/_rels/_temp_slide.xml.rels" = none

/-- The results of a sequence of calls and the list afterwards. -/
def editAll : List Slide → List Editor.Op → List (Option Nat) × List Slide
  | l, [] => ([], l)
  | l, op :: ops =>
    let r := editList l op
    let s := editAll r.1 ops
    (r.2 :: s.1, s.2)

end PptRs.Spec

namespace PptRs.Editor

/-- The results of a sequence of calls and the editor afterwards. -/
def runAll : Editor → List Op → List (Option Nat) × Editor
  | e, [] => ([], e)
  | e, op :: ops =>
    let r := op.run e
    let s := runAll r.1 ops
    (r.2 :: s.1, s.2)

end PptRs.Editor

namespace PptRs.Spec

/-- What a reader sees of a relationship part: identifier, type and target of each relationship. -/
def readRels (x : Str) : Option (List (Option Str × Option Str × Option Str)) :=
  (document x).map fun d => (elemsL c!"Relationship" d).map fun r =>
    (attrOf c!"Id" r, attrOf c!"Type" r, attrOf c!"Target" r)

/-- What a reader sees of the slide list of `presentation.xml`: slide id and relationship id. -/
def readSlideList (x : Str) : Option (List (Option Str × Option Str)) :=
  (document x).map fun d => (elemsL c!"p:sldId" d).map fun r => (attrOf c!"id" r, attrOf c!"r:id" r)

/-- The relationship ids of the elements with a given name. -/
def readRefs (name x : Str) : Option (List (Option Str)) :=
  (document x).map fun d => (elemsL name d).map (attrOf c!"r:id")

/-- What a reader sees of `[Content_Types].xml`: the extensions and the part names with their types. -/
def readTypes (x : Str) :
    Option (List (Option Str × Option Str) × List (Option Str × Option Str)) :=
  (document x).map fun d =>
    ((elemsL c!"Default" d).map fun r => (attrOf c!"Extension" r, attrOf c!"ContentType" r),
     (elemsL c!"Override" d).map fun r => (attrOf c!"PartName" r, attrOf c!"ContentType" r))

/-- The content type of a part: by its name, otherwise by its extension. -/
def typeFor (t : List (Option Str × Option Str) × List (Option Str × Option Str)) (path : Str) :
    Option Str :=
  ((t.2.find? fun e => e.1 = some ('/' :: path)).or
    (t.1.find? fun e => e.1 = some (extensionOf path))).bind (·.2)

/-- Where slide `i` should be after an accepted call; `none` if it has been removed. -/
def newPos : Editor.Op → Nat → Option Nat
  | .add _, i => some i
  | .insert k _, i => some (if i < k then i else i + 1)
  | .update _ _, i => some i
  | .remove k, i => if i < k then some i else if i = k then none else some (i - 1)
  | .duplicate k, i => some (if i ≤ k then i else i + 1)
  | .reorder a b, i =>
    if i = a then some b
    else
      let r := if i < a then i else i - 1
      some (if r < b then r else r + 1)

/-- Slide `i` has a relationship to slide `j`, as written for a link from one slide to another. -/
def LinksTo (p : Package) (i j : Nat) : Prop :=
  ∃ text rels r, p.getPartString (c!"ppt/slides/_rels/slide" ++ dec (i + 1) ++ c!".xml.rels") = some text ∧
    readRels text = some rels ∧ r ∈ rels ∧ r.2.2 = some (c!"slide" ++ dec (j + 1) ++ c!".xml")

end PptRs.Spec
