import Verif.Spec.Drawing
import Verif.Spec.Reader

/-!
# What is left of a drawing when a slide is loaded
-/

namespace PptRs.Draw

open PptRs PptRs.Spec

/-- The lines of a text that can be seen. -/
def seenLines (l : List Str) : List Str := l.filter fun t => ¬ BlankText t

/-- What is seen of a line of highlighted code: the segments that are not white space. -/
def seenLine (l : List Segment) : Str := (seenLines (l.map (·.text))).flatten

/-- What is seen of a code block. -/
def seenCode (highlight : Option (Str → Str → List (List Segment))) (b : CodeBlock) : List Str :=
  match highlight with
  | some f => ((f b.code b.language).map seenLine).filter (· ≠ [])
  | none => []

/-- The kinds of shapes that loading knows. -/
def knownKinds : List ShapeType :=
  [.rectangle, .roundedRectangle, .ellipse, .triangle, .rightTriangle, .diamond, .pentagon, .hexagon, .octagon, .star5, .rightArrow]

/-- The known kind that is drawn in the same way; all others become rectangles. -/
def knownKind (k : ShapeType) : ShapeType := (knownKinds.find? fun x => x.presetName = k.presetName).getD .rectangle

/-- The text that is left of lines. -/
def loadedLines (l : List Str) : Option Str := if l = [] then none else some (joinStr c!"\n" l)

/-- A shape after loading: its kind, its place and its text. Of text that looks like code the blank lines are lost. -/
def loadedShape (s : Shape) : Shape where
  kind := knownKind s.kind
  x := s.x
  y := s.y
  width := s.width
  height := s.height
  text := s.text.bind fun t => loadedLines (seenLines (if isCode t then strLines t else [t]))

/-- A code block after loading: a rectangle. -/
def loadedCode (highlight : Option (Str → Str → List (List Segment))) (b : CodeBlock) : Shape where
  kind := .rectangle
  x := b.x.toNat
  y := b.y.toNat
  width := b.width.toNat
  height := b.height.toNat
  text := loadedLines (seenCode highlight b)

/-- A drawing after loading: pictures, connectors and charts are lost. -/
def Drawing.loaded (highlight : Option (Str → Str → List (List Segment))) (d : Drawing) : List Shape :=
  d.shapes.map loadedShape ++ d.codeBlocks.map (loadedCode highlight)

/-- Positions and sizes that fit into 32 bits, as those of shapes always do. -/
structure Drawing.Fits (d : Drawing) : Prop where
  shapes : ∀ s ∈ d.shapes, s.x < 4294967296 ∧ s.y < 4294967296 ∧ s.width < 4294967296 ∧ s.height < 4294967296
  code : ∀ b ∈ d.codeBlocks, ∀ n ∈ [b.x, b.y, b.width, b.height], -9223372036854775808 ≤ n ∧ n < 4294967296

end PptRs.Draw
