import Verif.Model.Mermaid

/-!
# Diagrams of all kinds, placed on the slide

The choice of the generator, src/cli/markdown/mermaid/mod.rs 71-111, and the placing of what it draws,
src/cli/markdown/parser.rs 435-502. Flowcharts have a bounding box of their own: Model/Flowchart.lean. Positions are
natural numbers without 32-bit overflow.
-/

namespace PptRs.Mermaid

open PptRs

/-- What the generators need besides the text: Unicode tables, floating point numbers, and the order in which a hash map
lists the entities of an ER diagram. -/
structure World (V : Type) where
  low : Str → Str
  alpha : Char → Bool
  value : Str → Option V
  percent : List V → V → Str
  proj : Nat → Nat → Nat → Nat × Nat
  scaleX : Str → Nat
  scaleY : Str → Nat
  order : List (Str × List Str) → List (Str × List Str)

/-- The shape for a text of unknown kind, src/cli/markdown/mermaid/mod.rs 94-109; of the text only the first line is
shown. -/
def unknownFig (code : Str) : Fig :=
  { kind := c!"rect", x := 1000000, y := 2000000, width := 7000000, height := 3000000, fill := some c!"F5F5F5",
    text := some (c!"Diagram: " ++ (splitChar '\n' code).headD []) }

/-- `create_diagram_elements`, src/cli/markdown/mermaid/mod.rs 71-111, without flowcharts. -/
def diagram {V : Type} (w : World V) (code : Str) : Kind → List Fig × List Link
  | .flowchart => ([], [])
  | .pie => (pieFigures w.percent (pieParse w.value code), [])
  | .sequence => ((Seq.parse code).figures, [])
  | .gantt => (ganttFigures (ganttParse code), [])
  | .classDiagram => ((Classes.parse code).figures, (Classes.parse code).links)
  | .stateDiagram => ((States.parse code).figures, (States.parse code).links)
  | .erDiagram =>
    let e := Entities.parse w.alpha code
    (erFigures (w.order e.entities) e.relations, erLinks (w.order e.entities) e.relations)
  | .mindmap => ((Mind.parse code).figures w.proj, [])
  | .timeline => (timelineFigures (timelineParse code), [])
  | .journey => (journeyFigures (journeyParse code), [])
  | .quadrant => (quadrantFigures w.scaleX w.scaleY (quadrantParse code), [])
  | .gitGraph => ((Git.parse code).figures, [])
  | .unknown => ([unknownFig code], [])

/-- The bounds of shapes, src/cli/markdown/mermaid/types.rs 133-138 and 148-153. -/
def figBounds (figs : List Fig) : Option (Nat × Nat × Nat × Nat) :=
  Flow.boundingBox (figs.map fun f => (f.x, f.y, f.width, f.height))

/-- src/cli/markdown/parser.rs 465-469. -/
def Fig.move (f : Fig) (o : Nat × Nat) : Fig := { f with x := f.x + o.1, y := f.y + o.2 }

/-- src/cli/markdown/parser.rs 476-482. -/
def Link.move (l : Link) (o : Nat × Nat) : Link :=
  { l with startX := l.startX + o.1, startY := l.startY + o.2, endX := l.endX + o.1, endY := l.endY + o.2 }

/-- Shapes and connectors as they are put on the slide, src/cli/markdown/parser.rs 435-483. -/
def placed (d : List Fig × List Link) : List Fig × List Link :=
  (d.1.map (·.move (Flow.offset (figBounds d.1))), d.2.map (·.move (Flow.offset (figBounds d.1))))

/-- `add_mermaid_diagram`, src/cli/markdown/parser.rs 435-483. -/
def slideDiagram {V : Type} (w : World V) (code : Str) : List Fig × List Link :=
  placed (diagram w code (detectType w.low code))

/-- The title of the slide a diagram starts, src/cli/markdown/mermaid/mod.rs 114-132 and src/cli/markdown/parser.rs 493. -/
def kindTitle : Kind → Str
  | .flowchart => c!"Flowchart"
  | .sequence => c!"Sequence Diagram"
  | .pie => c!"Pie Chart"
  | .gantt => c!"Gantt Chart"
  | .classDiagram => c!"Class Diagram"
  | .stateDiagram => c!"State Diagram"
  | .erDiagram => c!"ER Diagram"
  | .mindmap => c!"Mind Map"
  | .timeline => c!"Timeline"
  | .journey => c!"User Journey"
  | .quadrant => c!"Quadrant Chart"
  | .gitGraph => c!"Git Graph"
  | .unknown => c!"Diagram"

end PptRs.Mermaid
