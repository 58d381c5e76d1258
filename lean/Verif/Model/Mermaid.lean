import Verif.Model.Flowchart
import Verif.Model.HtmlImport

/-!
# Mermaid diagrams other than flowcharts

src/cli/markdown/mermaid/*.rs. As in flowcharts (Model/Flowchart.lean) positions are natural numbers without 32-bit
overflow and lines are split at every line feed: they are trimmed afterwards, and empty ones are skipped, so this is what
`lines()` gives.
-/

namespace PptRs.Mermaid

open PptRs

/-- `MermaidType`, src/cli/markdown/mermaid/types.rs 8-22. -/
inductive Kind where
  | flowchart | sequence | pie | gantt | classDiagram | stateDiagram | erDiagram | mindmap | timeline | journey
  | quadrant | gitGraph | unknown
deriving DecidableEq, Repr

/-- `detect_type`, src/cli/markdown/mermaid/mod.rs 38-68. -/
def detectType (low : Str → Str) (code : Str) : Kind :=
  let first := lowerStr low (trim ((splitChar '\n' code).headD []))
  if startsWith c!"graph" first || startsWith c!"flowchart" first then .flowchart
  else if startsWith c!"sequencediagram" first || startsWith c!"sequence" first then .sequence
  else if startsWith c!"pie" first then .pie
  else if startsWith c!"gantt" first then .gantt
  else if startsWith c!"classdiagram" first || startsWith c!"class" first then .classDiagram
  else if startsWith c!"statediagram" first || startsWith c!"state" first then .stateDiagram
  else if startsWith c!"erdiagram" first || startsWith c!"er" first then .erDiagram
  else if startsWith c!"mindmap" first then .mindmap
  else if startsWith c!"timeline" first then .timeline
  else if startsWith c!"journey" first then .journey
  else if startsWith c!"quadrantchart" first || startsWith c!"quadrant" first then .quadrant
  else if startsWith c!"gitgraph" first || startsWith c!"git" first then .gitGraph
  else .unknown

/-- A shape with its fill: src/generator/shapes.rs 578-594. -/
structure Fig where
  kind : Str
  x : Nat
  y : Nat
  width : Nat
  height : Nat
  id : Option Nat := none
  fill : Option Str := none
  text : Option Str := none
deriving DecidableEq, Repr

/-- The sides where connectors are attached, src/generator/connectors.rs (`ConnectionSite`). -/
inductive Side where
  | top | bottom | left | right
deriving DecidableEq, Repr

/-- A connector between two shapes with an arrow head at its end, src/generator/connectors.rs 195-225. -/
structure Link where
  startX : Nat
  startY : Nat
  endX : Nat
  endY : Nat
  head : Str
  start : Nat × Side
  finish : Nat × Side
deriving DecidableEq, Repr

/-- The lines of a diagram after the first one, trimmed. -/
def body (code : Str) : List Str := (splitChar '\n' code).tail.map trim

/-! ### Sequence diagrams: src/cli/markdown/mermaid/sequence.rs -/

/-- `participant_ids` with `participant_names`, and `messages`, src/cli/markdown/mermaid/sequence.rs 9-11. -/
structure Seq where
  participants : List (Str × Str) := []
  messages : List (Str × Str × Str) := []
deriving DecidableEq, Repr

/-- src/cli/markdown/mermaid/sequence.rs 25-28 and 39-46. -/
def Seq.add (s : Seq) (id name : Str) : Seq :=
  if s.participants.any (·.1 = id) then s else { s with participants := s.participants ++ [(id, name)] }

/-- `split_whitespace().next().unwrap_or("")`, src/cli/markdown/mermaid/sequence.rs 22. -/
def firstWord (s : Str) : Str := (trimStart s).takeWhile fun c => !isWs c

/-- src/cli/markdown/mermaid/sequence.rs 18-24. -/
def participant (rest : Str) : Str × Str :=
  match splitOnce? c!" as " rest with
  | some (a, b) => (trim a, trim b)
  | none => (firstWord rest, firstWord rest)

/-- src/cli/markdown/mermaid/sequence.rs 13-52, one line. -/
def Seq.line (s : Seq) (l : Str) : Seq :=
  match stripPrefix? c!"participant" l with
  | some r => if (participant (trim r)).1 = [] then s else s.add (participant (trim r)).1 (participant (trim r)).2
  | none =>
    if containsStr c!"->>" l || containsStr c!"-->>" l then
      match splitOnce? (if containsStr c!"-->>" l then c!"-->>" else c!"->>") l with
      | some (a, rest) =>
        match splitOnce? c!":" rest with
        | some (b, m) =>
          let t := (s.add (trim a) (trim a)).add (trim b) (trim b)
          { t with messages := t.messages ++ [(trim a, trim b, trim m)] }
        | none => s
      | none => s
    else s

/-- src/cli/markdown/mermaid/sequence.rs 8-52. -/
def Seq.parse (code : Str) : Seq := (body code).foldl Seq.line {}

/-- Where the box of the `i`-th participant begins, src/cli/markdown/mermaid/sequence.rs 66. -/
def Seq.left (i : Nat) : Nat := 500000 + i * 1800000

/-- The box at the top, the lifeline and the box at the bottom, src/cli/markdown/mermaid/sequence.rs 65-109. -/
def Seq.column (i : Nat) (p : Str × Str) : List Fig :=
  [{ kind := c!"rect", x := left i, y := 1600000, width := 1400000, height := 400000, fill := some c!"E3F2FD", text := some p.2 },
   { kind := c!"rect", x := left i + 1400000 / 2 - 10000, y := 2000000, width := 20000, height := 3000000, fill := some c!"757575" },
   { kind := c!"rect", x := left i, y := 5000000, width := 1400000, height := 400000, fill := some c!"E3F2FD", text := some p.2 }]

/-- `participant_x.get`, the index instead of the position, src/cli/markdown/mermaid/sequence.rs 63-67. -/
def Seq.index (s : Seq) (id : Str) : Option Nat := s.participants.findIdx? (·.1 = id)

/-- The arrow and the text of a message, src/cli/markdown/mermaid/sequence.rs 114-145. -/
def Seq.arrow (s : Seq) (i : Nat) (m : Str × Str × Str) : List Fig :=
  match s.index m.1, s.index m.2.1 with
  | some a, some b =>
    let y := 2200000 + i * 450000
    let u := left a + 1400000 / 2
    let v := left b + 1400000 / 2
    let x := if u < v then u else v
    let w := if u < v then v - u else u - v
    [{ kind := if u < v then c!"rightArrow" else c!"leftArrow", x, y, width := w, height := 120000, fill := some c!"1565C0" },
     { kind := c!"rect", x, y := y - 180000, width := w, height := 160000, text := some m.2.2 }]
  | _, _ => []

/-- `generate_shapes`, src/cli/markdown/mermaid/sequence.rs 7-148. -/
def Seq.figures (s : Seq) : List Fig :=
  (s.participants.mapIdx column).flatten ++ (s.messages.mapIdx s.arrow).flatten

/-! ### Sections: Gantt charts, journeys -/

/-- The sections read so far: finished ones, the name of the current one and its items (gantt.rs 8-11,
journey.rs 8-10). -/
structure Sections (α : Type) where
  title : Str := []
  done : List (Str × List α) := []
  name : Str := []
  items : List α := []

/-- A line with the name of a section: gantt.rs 22-30, journey.rs 20-28. -/
def Sections.open {α : Type} (s : Sections α) (name : Str) : Sections α :=
  if s.name = [] then { s with name } else { s with done := s.done ++ [(s.name, s.items)], items := [], name }

/-- Adding an item: gantt.rs 37, journey.rs 35. -/
def Sections.push {α : Type} (s : Sections α) (a : α) : Sections α := { s with items := s.items ++ [a] }

/-- The end of the text: gantt.rs 42-44, journey.rs 41-43. -/
def Sections.all {α : Type} (s : Sections α) : List (Str × List α) :=
  if s.name = [] then s.done else s.done ++ [(s.name, s.items)]

/-- One line of a Gantt chart, src/cli/markdown/mermaid/gantt.rs 13-40. The duration of a task is always 3. -/
def ganttLine (s : Sections Str) (l : Str) : Sections Str :=
  if l = [] ∨ startsWith c!"%%" l then s
  else match stripPrefix? c!"title" l with
    | some r => { s with title := trim r }
    | none =>
      match stripPrefix? c!"section" l with
      | some r => s.open (trim r)
      | none =>
        if containsStr c!":" l ∧ ¬ startsWith c!"dateFormat" l ∧ ¬ startsWith c!"axisFormat" l then
          match splitOnce? c!":" l with
          | some (t, _) => s.push (trim t)
          | none => s
        else s

/-- src/cli/markdown/mermaid/gantt.rs 8-44. -/
def ganttParse (code : Str) : Sections Str := (body code).foldl ganttLine {}

/-- The colours of bars, src/cli/markdown/mermaid/gantt.rs 62. -/
def ganttColors : List Str := [c!"4472C4", c!"ED7D31", c!"70AD47", c!"FFC000", c!"5B9BD5"]

/-- A task: its name and its bar, src/cli/markdown/mermaid/gantt.rs 71-92. -/
def ganttTask (section_ : Nat) (y : Nat) (i : Nat) (t : Str) : List Fig :=
  [{ kind := c!"rect", x := 500000, y, width := 2000000, height := 250000, text := some t },
   { kind := c!"roundRect", x := 2600000 + i * 200000, y, width := 1800000, height := 250000,
     fill := ganttColors[(section_ + i) % 5]? }]

/-- The tasks of a section from the given height on, src/cli/markdown/mermaid/gantt.rs 71-92. -/
def ganttTasks (section_ : Nat) (y : Nat) (l : List Str) : List Fig := (l.mapIdx fun i t => ganttTask section_ (y + i * 280000) i t).flatten

/-- The sections from the given height on, src/cli/markdown/mermaid/gantt.rs 64-93. -/
def ganttSections : Nat → Nat → List (Str × List Str) → List Fig
  | _, _, [] => []
  | n, y, (name, tasks) :: l =>
    { kind := c!"rect", x := 500000, y, width := 7000000, height := 300000, fill := some c!"E0E0E0", text := some name } ::
      (ganttTasks n (y + 350000) tasks ++ ganttSections (n + 1) (y + 350000 + tasks.length * 280000) l)

/-- `generate_shapes`, src/cli/markdown/mermaid/gantt.rs 46-96. -/
def ganttFigures (s : Sections Str) : List Fig :=
  (if s.title = [] then [] else
    [{ kind := c!"rect", x := 500000, y := 1600000, width := 7000000, height := 400000, text := some s.title }])
  ++ ganttSections 0 2100000 s.all

/-- `parse::<u8>().unwrap_or(3)`, src/cli/markdown/mermaid/journey.rs 34. -/
def journeyScore (s : Str) : Nat :=
  match parseU32? s with
  | some n => if n < 256 then n else 3
  | none => 3

/-- One line of a journey, src/cli/markdown/mermaid/journey.rs 12-38. -/
def journeyLine (s : Sections (Str × Nat)) (l : Str) : Sections (Str × Nat) :=
  if l = [] ∨ startsWith c!"title" l then s
  else match stripPrefix? c!"section" l with
    | some r => s.open (trim r)
    | none =>
      match splitChar ':' l with
      | t :: v :: _ => s.push (trim t, journeyScore (trim v))
      | _ => s

/-- src/cli/markdown/mermaid/journey.rs 8-43. -/
def journeyParse (code : Str) : Sections (Str × Nat) := (body code).foldl journeyLine {}

/-- The colour of a score, src/cli/markdown/mermaid/journey.rs 66-73. -/
def scoreColor : Nat → Str
  | 1 => c!"FFCDD2"
  | 2 => c!"FFE0B2"
  | 3 => c!"FFF9C4"
  | 4 => c!"C8E6C9"
  | 5 => c!"A5D6A7"
  | _ => c!"E0E0E0"

/-- A section, src/cli/markdown/mermaid/journey.rs 54-92. -/
def journeySection (n : Nat) (p : Str × List (Str × Nat)) : List Fig :=
  { kind := c!"rect", x := 500000 + n * 2200000, y := 1800000, width := 2000000, height := 350000, fill := some c!"7B1FA2", text := some p.1 } ::
    p.2.mapIdx fun i t =>
      { kind := c!"roundRect", x := 550000 + n * 2200000, y := 2200000 + i * 400000, width := 1900000, height := 350000,
        fill := some (scoreColor t.2), text := some (t.1 ++ c!" (" ++ dec t.2 ++ c!")") }

/-- `generate_shapes`, src/cli/markdown/mermaid/journey.rs 45-111. -/
def journeyFigures (s : Sections (Str × Nat)) : List Fig :=
  let l := (s.all.mapIdx journeySection).flatten
  if l = [] then
    [{ kind := c!"rect", x := 1000000, y := 2000000, width := 7000000, height := 3000000, fill := some c!"F3E5F5", text := some c!"User Journey Diagram" }]
  else l

/-! ### Timelines: src/cli/markdown/mermaid/timeline.rs -/

/-- One line, src/cli/markdown/mermaid/timeline.rs 14-35. `current_date` is the name of the section here. -/
def timelineLine (s : Sections Str) (l : Str) : Sections Str :=
  if l = [] ∨ startsWith c!"%%" l then s
  else match stripPrefix? c!"title" l with
    | some r => { s with title := trim r }
    | none =>
      match splitOnce? c!":" l with
      | some (d, i) => if trim i = [] then s.open (trim d) else (s.open (trim d)).push (trim i)
      | none => if s.name = [] then s else s.push l

/-- src/cli/markdown/mermaid/timeline.rs 9-39. -/
def timelineParse (code : Str) : Sections Str := (body code).foldl timelineLine {}

/-- The colours of events, src/cli/markdown/mermaid/timeline.rs 69. -/
def timelineColors : List Str := [c!"EFEBE9", c!"D7CCC8", c!"BCAAA4", c!"A1887F"]

/-- The marker, the date and the items of an event, src/cli/markdown/mermaid/timeline.rs 71-112. -/
def timelineEvent (i : Nat) (p : Str × List Str) : List Fig :=
  [{ kind := c!"ellipse", x := 500000 + i * 1600000 + 1400000 / 2 - 75000, y := 2440000, width := 150000, height := 150000, fill := some c!"5D4037" },
   { kind := c!"rect", x := 500000 + i * 1600000, y := 2100000, width := 1400000, height := 300000, fill := some c!"5D4037", text := some p.1 },
   { kind := c!"roundRect", x := 500000 + i * 1600000, y := 2650000, width := 1400000, height := max p.2.length 1 * 250000,
     fill := timelineColors[i % 4]?, text := some (joinStr c!"\n" p.2) }]

/-- `generate_shapes`, src/cli/markdown/mermaid/timeline.rs 41-115. -/
def timelineFigures (s : Sections Str) : List Fig :=
  (if s.title = [] then [] else
    [{ kind := c!"rect", x := 500000, y := 1600000, width := 7500000, height := 400000, text := some s.title }])
  ++ [{ kind := c!"rect", x := 500000, y := 2500000, width := s.all.length * 1600000 + 500000, height := 30000, fill := some c!"5D4037" }]
  ++ (s.all.mapIdx timelineEvent).flatten

/-! ### Class diagrams: src/cli/markdown/mermaid/class_diagram.rs -/

/-- src/cli/markdown/mermaid/class_diagram.rs 15-20. -/
structure Classes where
  classes : List (Str × List Str × List Str) := []
  name : Str := []
  attrs : List Str := []
  methods : List Str := []
  inside : Bool := false
  relations : List (Str × Str) := []

/-- The parts between the characters of arrows that are not empty, src/cli/markdown/mermaid/class_diagram.rs 62-65. -/
def splitAny (cs : List Char) : Str → List Str
  | [] => [[]]
  | c :: s =>
    if c ∈ cs then [] :: splitAny cs s
    else match splitAny cs s with
      | [] => [[c]]
      | x :: xs => (c :: x) :: xs

/-- One line, src/cli/markdown/mermaid/class_diagram.rs 22-74. The type of the relationship is not used afterwards and left out. -/
def Classes.line (s : Classes) (l : Str) : Classes :=
  if l = [] ∨ startsWith c!"%%" l then s
  else if startsWith c!"class " l ∧ containsStr c!"{" l then
    { s with name := trim ((splitChar '{' ((stripPrefix? c!"class " l).getD [])).headD []), inside := true, attrs := [], methods := [] }
  else if l = c!"}" ∧ s.inside then
    { s with classes := s.classes ++ [(s.name, s.attrs, s.methods)], inside := false }
  else if s.inside then
    if containsStr c!"(" l then { s with methods := s.methods ++ [l] } else { s with attrs := s.attrs ++ [l] }
  else if containsStr c!"<|--" l || containsStr c!"-->" l || containsStr c!"--" l then
    match (splitAny c!"<|->" l).filter (· ≠ []) with
    | a :: b :: r => { s with relations := s.relations ++ [(trim a, trim ((b :: r).getLastD []))] }
    | _ => s
  else s

/-- src/cli/markdown/mermaid/class_diagram.rs 15-74. -/
def Classes.parse (code : Str) : Classes := (body code).foldl Classes.line {}

/-- Where the `i`-th box of a grid with three columns is, src/cli/markdown/mermaid/class_diagram.rs 89-90; with other distances in state_diagram.rs 66-67
and er_diagram.rs 83-84. -/
def gridCell (x y dx dy i : Nat) : Nat × Nat := (x + i % 3 * dx, y + i / 3 * dy)

/-- src/cli/markdown/mermaid/class_diagram.rs 88-144. -/
def classBoxes (i : Nat) (c : Str × List Str × List Str) : List Fig :=
  let p := gridCell 500000 1600000 2500000 2000000 i
  [{ kind := c!"rect", x := p.1, y := p.2, width := 2000000, height := 350000, id := some (10 + 3 * i), fill := some c!"4472C4", text := some c.1 },
   { kind := c!"rect", x := p.1, y := p.2 + 350000, width := 2000000, height := max c.2.1.length 1 * 250000, id := some (11 + 3 * i),
     fill := some c!"D6DCE5", text := some (joinStr c!"\n" c.2.1) },
   { kind := c!"rect", x := p.1, y := p.2 + 350000 + max c.2.1.length 1 * 250000, width := 2000000, height := max c.2.2.length 1 * 250000,
     id := some (12 + 3 * i), fill := some c!"FFFFFF", text := some (joinStr c!"\n" c.2.2) }]

/-- The index under which a name is found in a map that was filled in order: the last one. -/
def lastIdx? (l : List Str) (a : Str) : Option Nat :=
  (l.reverse.findIdx? (· = a)).map fun i => l.length - 1 - i

/-- The sides for a connector between two boxes, src/cli/markdown/mermaid/class_diagram.rs 155-163. -/
def classSides (p q : Nat × Nat) : Side × Side :=
  if p.2 < q.2 then (.bottom, .top) else if p.2 > q.2 then (.top, .bottom) else if p.1 < q.1 then (.right, .left) else (.left, .right)

/-- A connector, src/cli/markdown/mermaid/class_diagram.rs 147-185. -/
def classLink (names : List Str) (r : Str × Str) : Option Link :=
  match lastIdx? names r.1, lastIdx? names r.2 with
  | some i, some j =>
    let p := gridCell 500000 1600000 2500000 2000000 i
    let q := gridCell 500000 1600000 2500000 2000000 j
    some ⟨p.1 + 1000000, p.2, q.1 + 1000000, q.2 + 500000, c!"triangle", (10 + 3 * i, (classSides p q).1), (10 + 3 * j, (classSides p q).2)⟩
  | _, _ => none

/-- `generate_elements`, src/cli/markdown/mermaid/class_diagram.rs 11-188. -/
def Classes.figures (s : Classes) : List Fig := (s.classes.mapIdx classBoxes).flatten

/-- The connectors of a class diagram. -/
def Classes.links (s : Classes) : List Link := s.relations.filterMap (classLink (s.classes.map (·.1)))

/-! ### State diagrams: src/cli/markdown/mermaid/state_diagram.rs -/

/-- src/cli/markdown/mermaid/state_diagram.rs 15-16. -/
structure States where
  states : List Str := []
  transitions : List (Str × Str × Str) := []
deriving DecidableEq, Repr

/-- src/cli/markdown/mermaid/state_diagram.rs 41-46. -/
def States.add (s : States) (a : Str) : States := if a ∈ s.states then s else { s with states := s.states ++ [a] }

/-- The two sides of the first arrow, and the text up to the next arrow, src/cli/markdown/mermaid/state_diagram.rs 25-33. -/
def arrowParts (l : Str) : Option (Str × Str) :=
  (splitOnce? c!"-->" l).map fun r => (r.1, match splitOnce? c!"-->" r.2 with | some (m, _) => m | none => r.2)

/-- One line, src/cli/markdown/mermaid/state_diagram.rs 18-51. -/
def States.line (s : States) (l : Str) : States :=
  if l = [] ∨ startsWith c!"%%" l ∨ startsWith c!"direction" l then s
  else match arrowParts l with
    | none => s
    | some (a, r) =>
      let p := match splitOnce? c!":" r with
        | some (t, m) => (trim t, trim m)
        | none => (trim r, [])
      let u := if trim a = c!"[*]" then c!"Start" else trim a
      let v := if p.1 = c!"[*]" then c!"End" else p.1
      let t := (s.add u).add v
      { t with transitions := t.transitions ++ [(u, v, p.2)] }

/-- src/cli/markdown/mermaid/state_diagram.rs 15-51. -/
def States.parse (code : Str) : States := (body code).foldl States.line {}

/-- Where the `i`-th state is, src/cli/markdown/mermaid/state_diagram.rs 66-67. -/
def statePlace (i : Nat) : Nat × Nat := gridCell 1000000 1800000 2200000 1200000 i

/-- The shape of a state, src/cli/markdown/mermaid/state_diagram.rs 65-92. -/
def stateFig (i : Nat) (a : Str) : Fig :=
  { kind := if a = c!"Start" ∨ a = c!"End" then c!"ellipse" else c!"roundRect", x := (statePlace i).1, y := (statePlace i).2, width := 1500000,
    height := 500000, id := some (10 + i), fill := some (if a = c!"Start" ∨ a = c!"End" then c!"000000" else c!"E0F7FA"), text := some a }

/-- The sides, src/cli/markdown/mermaid/state_diagram.rs 102-110 and er_diagram.rs 121-129. -/
def stateSides (p q : Nat × Nat) : Side × Side :=
  if p.1 < q.1 then (.right, .left) else if p.1 > q.1 then (.left, .right) else if p.2 < q.2 then (.bottom, .top) else (.top, .bottom)

/-- A transition: its connector and its label with the given id, src/cli/markdown/mermaid/state_diagram.rs 94-154. -/
def stateLink (names : List Str) (r : Str × Str × Str) : Option (Link × Option (Nat → Fig)) :=
  match names.findIdx? (· = r.1), names.findIdx? (· = r.2.1) with
  | some i, some j =>
    let p := statePlace i
    let q := statePlace j
    some (⟨p.1 + 1500000, p.2 + 250000, q.1, q.2 + 250000, c!"triangle", (10 + i, (stateSides p q).1), (10 + j, (stateSides p q).2)⟩,
      if r.2.2 = [] then none else some fun id =>
        { kind := c!"roundRect", x := (p.1 + 1500000 + q.1) / 2 - 400000, y := (p.2 + q.2 + 500000) / 2 - 125000, width := 800000,
          height := 250000, id := some id, fill := some c!"FFFDE7", text := some r.2.2 })
  | _, _ => none

/-- Labels with ids from the given one on, src/cli/markdown/mermaid/state_diagram.rs 144-150. -/
def numbered (id : Nat) (l : List (Nat → Fig)) : List Fig := l.mapIdx fun i f => f (id + i)

/-- `generate_elements`, src/cli/markdown/mermaid/state_diagram.rs 11-157: the shapes. -/
def States.figures (s : States) : List Fig :=
  s.states.mapIdx stateFig ++ numbered (10 + s.states.length) ((s.transitions.filterMap (stateLink s.states)).filterMap (·.2))

/-- The connectors of a state diagram. -/
def States.links (s : States) : List Link := (s.transitions.filterMap (stateLink s.states)).map (·.1)

/-! ### ER diagrams: src/cli/markdown/mermaid/er_diagram.rs -/

/-- src/cli/markdown/mermaid/er_diagram.rs 15-17. -/
structure Entities where
  entities : AMap Str (List Str) := []
  relations : List (Str × Str × Str) := []
  current : Str := []

/-- src/cli/markdown/mermaid/er_diagram.rs 47-52, 57-59. -/
def Entities.add (s : Entities) (a : Str) : Entities := if s.entities.has a then s else { s with entities := s.entities ++ [(a, [])] }

/-- `trim_matches(c)`. -/
def trimChar (c : Char) (s : Str) : Str := (trimStartChar c (trimStartChar c s).reverse).reverse

/-- One line, src/cli/markdown/mermaid/er_diagram.rs 19-67; `alpha` is `char::is_alphabetic`. -/
def Entities.line (alpha : Char → Bool) (s : Entities) (l : Str) : Entities :=
  if l = [] ∨ startsWith c!"%%" l then s
  else if containsStr c!"||" l || containsStr c!"}|" l || containsStr c!"|{" l || containsStr c!"o{" l then
    let p := match splitOnce? c!":" l with
      | some (a, b) => (a, trimChar '\'' (trimChar '"' (trim b)))
      | none => (l, [])
    match (splitAny c!"|{}o-" p.1).filter fun x => x.any alpha with
    | a :: b :: r =>
      let u := trim a
      let v := trim ((b :: r).getLastD [])
      let t := (s.add u).add v
      { t with relations := t.relations ++ [(u, v, p.2)] }
    | _ => s
  else if containsStr c!"{" l then
    { s.add (trim ((splitChar '{' l).headD [])) with current := trim ((splitChar '{' l).headD []) }
  else if l = c!"}" then { s with current := [] }
  else if s.current = [] then s
  else { s with entities := s.entities.map fun e => if e.1 = s.current then (e.1, e.2 ++ [l]) else e }

/-- src/cli/markdown/mermaid/er_diagram.rs 15-67. -/
def Entities.parse (alpha : Char → Bool) (code : Str) : Entities := (body code).foldl (Entities.line alpha) {}

/-- Where the `i`-th entity is, src/cli/markdown/mermaid/er_diagram.rs 83-84. -/
def erPlace (i : Nat) : Nat × Nat := gridCell 500000 1600000 2800000 2500000 i

/-- src/cli/markdown/mermaid/er_diagram.rs 82-111. -/
def erBoxes (i : Nat) (e : Str × List Str) : List Fig :=
  [{ kind := c!"rect", x := (erPlace i).1, y := (erPlace i).2, width := 2200000, height := 400000, id := some (10 + 2 * i), fill := some c!"C2185B",
     text := some e.1 },
   { kind := c!"rect", x := (erPlace i).1, y := (erPlace i).2 + 400000, width := 2200000, height := max e.2.length 1 * 280000,
     id := some (11 + 2 * i), fill := some c!"FCE4EC", text := some (joinStr c!"\n" e.2) }]

/-- src/cli/markdown/mermaid/er_diagram.rs 113-174. -/
def erLink (names : List Str) (r : Str × Str × Str) : Option (Link × Option (Nat → Fig)) :=
  match names.findIdx? (· = r.1), names.findIdx? (· = r.2.1) with
  | some i, some j =>
    let p := erPlace i
    let q := erPlace j
    some (⟨p.1 + 2200000, p.2 + 200000, q.1, q.2 + 200000, c!"diamond", (10 + 2 * i, (stateSides p q).1), (10 + 2 * j, (stateSides p q).2)⟩,
      if r.2.2 = [] then none else some fun id =>
        { kind := c!"roundRect", x := (p.1 + 2200000 + q.1) / 2 - 500000, y := (p.2 + q.2 + 400000) / 2 - 125000, width := 1000000,
          height := 250000, id := some id, fill := some c!"FFFFFF", text := some r.2.2 })
  | _, _ => none

/-- `generate_elements`, src/cli/markdown/mermaid/er_diagram.rs 11-177: the shapes, for entities in the order in which the
hash map lists them. -/
def erFigures (entities : List (Str × List Str)) (relations : List (Str × Str × Str)) : List Fig :=
  (entities.mapIdx erBoxes).flatten ++ numbered (10 + 2 * entities.length) ((relations.filterMap (erLink (entities.map (·.1)))).filterMap (·.2))

/-- The connectors of an ER diagram. -/
def erLinks (entities : List (Str × List Str)) (relations : List (Str × Str × Str)) : List Link :=
  (relations.filterMap (erLink (entities.map (·.1)))).map (·.1)

/-! ### Pie charts: src/cli/markdown/mermaid/pie.rs -/

/-- One line, src/cli/markdown/mermaid/pie.rs 9-19; `value` is `parse::<f64>`. -/
def pieLine {V : Type} (value : Str → Option V) (l : Str) : Option (Str × V) :=
  if startsWith c!"title" l then none
  else match splitOnce? c!":" l with
    | some (a, v) => (value (trim v)).map fun x => (trimChar '"' (trim a), x)
    | none => none

/-- `parse`, src/cli/markdown/mermaid/pie.rs 6-22. -/
def pieParse {V : Type} (value : Str → Option V) (code : Str) : List (Str × V) := (body code).filterMap (pieLine value)

/-- The colours, src/cli/markdown/mermaid/pie.rs 32-34. -/
def pieColors : List Str := [c!"4472C4", c!"ED7D31", c!"A5A5A5", c!"FFC000", c!"5B9BD5", c!"70AD47", c!"9E480E", c!"997300"]

/-- `generate_shapes`, src/cli/markdown/mermaid/pie.rs 25-91; `percent` is the percentage of a value, with one decimal. -/
def pieFigures {V : Type} (percent : List V → V → Str) (l : List (Str × V)) : List Fig :=
  if l.isEmpty then []
  else { kind := c!"ellipse", x := 1000000, y := 1500000, width := 3000000, height := 3000000, fill := pieColors[0]? } ::
    (l.mapIdx fun i p => [
      { kind := c!"rect", x := 5000000, y := 2000000 + i * 350000, width := 200000, height := 200000, fill := pieColors[i % 8]? },
      { kind := c!"rect", x := 5300000, y := 2000000 + i * 350000, width := 2500000, height := 200000,
        text := some (p.1 ++ c!" (" ++ percent (l.map (·.2)) p.2 ++ c!"%)") : Fig }]).flatten

/-! ### Git graphs: src/cli/markdown/mermaid/gitgraph.rs -/

/-- src/cli/markdown/mermaid/gitgraph.rs 9-12; the number of commits is the length of the list. -/
structure Git where
  commits : List (Str × Str) := []
  branches : List Str := [c!"main"]
  current : Str := c!"main"
deriving DecidableEq, Repr

/-- The name of a commit, src/cli/markdown/mermaid/gitgraph.rs 22-31. -/
def commitName (n : Nat) (l : Str) : Str :=
  match splitOnce? c!"id:" l with
  | some (_, r) => trimChar '"' (trim (match splitOnce? c!"id:" r with | some (m, _) => m | none => r))
  | none => c!"C" ++ dec n

/-- One line, src/cli/markdown/mermaid/gitgraph.rs 14-62. -/
def Git.line (g : Git) (l : Str) : Git :=
  if l = [] then g
  else if startsWith c!"commit" l then { g with commits := g.commits ++ [(commitName g.commits.length l, g.current)] }
  else match stripPrefix? c!"branch" l with
    | some r => if trim r = [] ∨ trim r ∈ g.branches then g else { g with branches := g.branches ++ [trim r] }
    | none =>
      match stripPrefix? c!"checkout" l with
      | some r => if trim r = [] then g else { g with current := trim r }
      | none =>
        match stripPrefix? c!"merge" l with
        | some r => { g with commits := g.commits ++ [(c!"Merge " ++ trim r, g.current)] }
        | none => g

/-- src/cli/markdown/mermaid/gitgraph.rs 9-62. -/
def Git.parse (code : Str) : Git := (body code).foldl Git.line {}

/-- The colours of branches, src/cli/markdown/mermaid/gitgraph.rs 72. -/
def gitColors : List Str := [c!"1565C0", c!"2E7D32", c!"7B1FA2", c!"E65100", c!"C2185B"]

/-- The name and the line of a branch, src/cli/markdown/mermaid/gitgraph.rs 75-104. -/
def gitBranch (count : Nat) (i : Nat) (b : Str) : List Fig :=
  [{ kind := c!"roundRect", x := 200000, y := 2000000 + i * 600000 - 100000, width := 700000, height := 200000, fill := gitColors[i % 5]?, text := some b },
   { kind := c!"rect", x := 1000000, y := 2000000 + i * 600000 - 25000, width := max count 1 * 800000 + 200000, height := 50000, fill := gitColors[i % 5]? }]

/-- The row of a branch, src/cli/markdown/mermaid/gitgraph.rs 108. -/
def Git.row (g : Git) (b : Str) : Nat := (g.branches.findIdx? (· = b)).getD 0

/-- The dot and the label of a commit, src/cli/markdown/mermaid/gitgraph.rs 107-122 with `create_labeled_dot` (types.rs 227-266). -/
def gitCommit (g : Git) (i : Nat) (c : Str × Str) : List Fig :=
  let x := 1000000 + i * 800000
  let y := 2000000 + g.row c.2 * 600000 - 150000
  [{ kind := c!"ellipse", x, y, width := 300000, height := 300000, fill := some c!"FFFFFF" },
   { kind := c!"rect", x := x + 150000 - 400000, y := y - 250000, width := 800000, height := 200000, text := some c.1 }]

/-- `generate_shapes`, src/cli/markdown/mermaid/gitgraph.rs 64-141. -/
def Git.figures (g : Git) : List Fig :=
  (g.branches.mapIdx (gitBranch g.commits.length)).flatten ++ (g.commits.mapIdx (gitCommit g)).flatten
  ++ (if g.commits = [] then
      [{ kind := c!"rect", x := 1000000, y := 2000000, width := 7000000, height := 3000000, fill := some c!"ECEFF1", text := some c!"Git Graph" }] else [])

/-! ### Mind maps: src/cli/markdown/mermaid/mindmap.rs -/

/-- src/cli/markdown/mermaid/mindmap.rs 10-12. -/
structure Mind where
  root : Str := []
  branches : List Str := []
  leaves : List (Nat × Str) := []
deriving DecidableEq, Repr

/-- `trim_matches` for several characters. -/
def trimChars (cs : List Char) (s : Str) : Str := (((s.dropWhile (· ∈ cs)).reverse).dropWhile (· ∈ cs)).reverse

/-- The text of a line, src/cli/markdown/mermaid/mindmap.rs 21-25. -/
def mindText (l : Str) : Str := trimChars c!"()[]" (trim ((trim l).dropWhile (· ∈ c!"-+*")))

/-- One line, src/cli/markdown/mermaid/mindmap.rs 14-41. The white space before the text is counted in bytes. -/
def Mind.line (m : Mind) (l : Str) : Mind :=
  if trim l = [] ∨ startsWith c!"%%" (trim l) ∨ mindText l = [] then m
  else
    let spaces := utf8Len l - utf8Len (trimStart l)
    if spaces = 0 ∨ (m.root = [] ∧ spaces ≤ 4) then if m.root = [] then { m with root := mindText l } else m
    else if spaces ≤ 8 then { m with branches := m.branches ++ [mindText l] }
    else { m with leaves := m.leaves ++ [(m.branches.length - 1, mindText l)] }

/-- src/cli/markdown/mermaid/mindmap.rs 10-41. -/
def Mind.parse (code : Str) : Mind := ((splitChar '\n' code).tail).foldl Mind.line {}

/-- `create_labeled_shape` with the label inside, src/cli/markdown/mermaid/types.rs 173-224. -/
def labeled (kind : Str) (x y w h : Nat) (fill text : Str) : List Fig :=
  [{ kind, x, y, width := w, height := h, fill := some fill },
   { kind := c!"rect", x := x + 50000, y := y + 50000, width := w - 100000, height := h - 100000, text := some text }]

/-- The colours of branches, src/cli/markdown/mermaid/mindmap.rs 67. -/
def mindColors : List Str := [c!"4472C4", c!"ED7D31", c!"70AD47", c!"FFC000", c!"5B9BD5", c!"9E480E"]

/-- A node at a distance from the centre in the direction of a branch, src/cli/markdown/mermaid/mindmap.rs 75-77, 96-98. `proj r i n` are
`(r cos a) as u32` and `(r sin a) as u32` for the angle `a = 2πi/n - π/2`; the conversion turns negative numbers into 0. -/
def mindPlace (proj : Nat → Nat → Nat → Nat × Nat) (r i n : Nat) : Nat × Nat :=
  (4000000 + (proj r i n).1 - 750000, 3000000 + (proj r i n).2 - 200000)

/-- `generate_shapes`, src/cli/markdown/mermaid/mindmap.rs 43-115. -/
def Mind.figures (proj : Nat → Nat → Nat → Nat × Nat) (m : Mind) : List Fig :=
  labeled c!"ellipse" 3000000 2700000 2000000 600000 c!"3949AB" m.root
  ++ (m.branches.mapIdx fun i t =>
      labeled c!"roundRect" (mindPlace proj 2000000 i m.branches.length).1 (mindPlace proj 2000000 i m.branches.length).2 1500000 400000
        ((mindColors[i % 6]?).getD []) t).flatten
  ++ m.leaves.flatMap fun p =>
      if p.1 < m.branches.length then
        labeled c!"roundRect" (mindPlace proj 3200000 p.1 m.branches.length).1 (mindPlace proj 3200000 p.1 m.branches.length).2 1500000 400000
          c!"E8EAF6" p.2
      else []

/-! ### Quadrant charts: src/cli/markdown/mermaid/quadrant.rs -/

/-- A point of a line that is neither empty nor a title, an axis or the name of a quadrant, src/cli/markdown/mermaid/quadrant.rs 44-59. -/
def quadrantPoint (l : Str) : Option (Str × Str × Str) :=
  match splitOnce? c!"[" l with
  | none => none
  | some (a, r) =>
    match splitOnce? c!"]" r with
    | none => none
    | some (b, _) =>
      match splitChar ',' b with
      | [x, y] => some (trim ((trimStartChar ':' a.reverse).reverse), trim x, trim y)
      | _ => none

/-- One line, src/cli/markdown/mermaid/quadrant.rs 14-60. What is read from titles, axes and names of quadrants is not used afterwards. -/
def quadrantLine (l : Str) : Option (Str × Str × Str) :=
  if l = [] ∨ startsWith c!"title" l ∨ startsWith c!"x-axis" l ∨ startsWith c!"y-axis" l ∨ startsWith c!"quadrant-" l then none
  else quadrantPoint l

/-- src/cli/markdown/mermaid/quadrant.rs 9-60. -/
def quadrantParse (code : Str) : List (Str × Str × Str) := (body code).filterMap quadrantLine

/-- A quadrant, src/cli/markdown/mermaid/quadrant.rs 75-116. -/
def quadrantBox (right down : Bool) (fill : Str) : Fig :=
  { kind := c!"rect", x := if right then 4000000 else 1000000, y := if down then 3800000 else 1800000, width := 3000000, height := 2000000, fill := some fill }

/-- A point with its label, src/cli/markdown/mermaid/quadrant.rs 118-136 with `create_labeled_dot` (types.rs 227-266). `scaleX x` is
`(x * 6000000) as u32` and `scaleY y` is `((1 - y) * 4000000) as u32` for the number that is written in the text, or 0.5. -/
def quadrantDot (scaleX scaleY : Str → Nat) (p : Str × Str × Str) : List Fig :=
  let x := 1000000 + (scaleX p.2.1 - 150000)
  let y := 1800000 + (scaleY p.2.2 - 150000)
  [{ kind := c!"ellipse", x, y, width := 300000, height := 300000, fill := some c!"1565C0" },
   { kind := c!"rect", x := x + 350000, y := y + 150000 - 100000, width := 800000, height := 200000, text := some p.1 }]

/-- `generate_shapes`, src/cli/markdown/mermaid/quadrant.rs 62-154. -/
def quadrantFigures (scaleX scaleY : Str → Nat) (l : List (Str × Str × Str)) : List Fig :=
  [quadrantBox true false c!"C8E6C9", quadrantBox false false c!"BBDEFB", quadrantBox false true c!"FFECB3", quadrantBox true true c!"FFCDD2"]
  ++ l.flatMap (quadrantDot scaleX scaleY)
  ++ (if l = [] then
      [{ kind := c!"rect", x := 2500000, y := 3600000, width := 3000000, height := 400000, fill := some c!"FFFFFF", text := some c!"Quadrant Chart" }] else [])

end PptRs.Mermaid
