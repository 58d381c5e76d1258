import Verif.Model.Repair

/-!
# Flowcharts in Markdown documents

`nodes` of a flowchart is the list of values of a hash map, in any order. Positions are natural numbers: `u32`
arithmetic would overflow only with more than 1700 subgraphs or 4700 nodes. Fill and line colours are left out.
Upper-casing is modelled for ASCII; `uni` says which characters outside ASCII are alphanumeric.
-/

namespace PptRs.Flow

/-- src/cli/markdown/mermaid/types.rs 26-31. -/
inductive Direction where
  | leftToRight | rightToLeft | topToBottom | bottomToTop
deriving DecidableEq, Repr

/-- src/cli/markdown/mermaid/types.rs 43-50. -/
inductive NodeShape where
  | rectangle | roundedRect | stadium | diamond | circle | hexagon
deriving DecidableEq, Repr

/-- src/cli/markdown/mermaid/types.rs 63-68. -/
inductive ArrowStyle where
  | arrow | open | dotted | thick
deriving DecidableEq, Repr

/-- src/cli/markdown/mermaid/types.rs 35-39. -/
structure Node where
  id : Str
  label : Str
  shape : NodeShape
deriving DecidableEq, Repr

/-- src/cli/markdown/mermaid/types.rs 54-59. -/
structure Connection where
  source : Str
  target : Str
  label : Option Str
  arrow : ArrowStyle
deriving DecidableEq, Repr

/-- src/cli/markdown/mermaid/types.rs 72-75. -/
structure Subgraph where
  name : Str
  nodes : List Str
deriving DecidableEq, Repr

/-- src/cli/markdown/mermaid/types.rs 79-84. -/
structure Flowchart where
  direction : Direction
  nodes : List Node
  connections : List Connection
  subgraphs : List Subgraph
deriving DecidableEq, Repr

/-! ### Reading -/

/-- src/cli/markdown/mermaid/flowchart.rs 11-22. -/
def parseDirection (first : Str) : Direction :=
  if containsStr c!"LR" (first.map Char.toUpper) then .leftToRight
  else if containsStr c!"RL" (first.map Char.toUpper) then .rightToLeft
  else if containsStr c!"BT" (first.map Char.toUpper) then .bottomToTop
  else .topToBottom

/-- The arrows in the order of src/cli/markdown/mermaid/flowchart.rs 120. -/
def arrows : List Str := [c!"==>", c!"-.->", c!"-->", c!"---", c!"->"]

/-- The first arrow that occurs: the text before it and the text from it on. -/
def splitAtArrow (line : Str) : List Str → Option (Str × Str)
  | [] => none
  | a :: as => match splitOnce? a line with
    | some (u, v) => some (trim u, a ++ v)
    | none => splitAtArrow line as

/-- src/cli/markdown/mermaid/flowchart.rs 119-128. -/
def splitConnection (line : Str) : Option (Str × Str) := splitAtArrow line arrows

/-- src/cli/markdown/mermaid/flowchart.rs 131-145. -/
def parseArrowAndRest (s : Str) : ArrowStyle × Str :=
  match stripPrefix? c!"==>" s with
  | some r => (.thick, trim r)
  | none => match stripPrefix? c!"-.->" s with
    | some r => (.dotted, trim r)
    | none => match stripPrefix? c!"-->" s with
      | some r => (.arrow, trim r)
      | none => match stripPrefix? c!"---" s with
        | some r => (.open, trim r)
        | none => match stripPrefix? c!"->" s with
          | some r => (.arrow, trim r)
          | none => (.arrow, s)

/-- src/cli/markdown/mermaid/flowchart.rs 148-157. -/
def extractArrowLabel (s : Str) : Str × Option Str :=
  match splitOnce? c!"|" s with
  | none => (s, none)
  | some (_, r) => match splitOnce? c!"|" r with
    | none => (s, none)
    | some (label, rest) => (trim rest, some label)

/-- The brackets in the order of src/cli/markdown/mermaid/flowchart.rs 164-171. -/
def brackets : List (Str × Str × NodeShape) :=
  [(c!"((", c!"))", .circle), (c!"([", c!"])", .stadium), (c!"{{", c!"}}", .hexagon), (c!"[", c!"]", .rectangle),
   (c!"(", c!")", .roundedRect), (c!"{", c!"}", .diamond)]

/-- src/cli/markdown/mermaid/flowchart.rs 164-179. -/
def parseBrackets (s : Str) : List (Str × Str × NodeShape) → Option Node
  | [] => none
  | (o, c, shape) :: bs => match splitOnce? o s with
    | none => parseBrackets s bs
    | some (id, r) => match splitOnce? c r with
      | none => parseBrackets s bs
      | some (label, _) => some ⟨trim id, label, shape⟩

/-- src/cli/markdown/mermaid/flowchart.rs 183. -/
def isWord (uni : Char → Bool) (s : Str) : Bool := s ≠ [] && s.all fun c => Repair.isAlnum uni c || c = '_'

/-- src/cli/markdown/mermaid/flowchart.rs 160-195: the id and the node. -/
def parseNodeDef (uni : Char → Bool) (s : Str) : Str × Option Node :=
  match parseBrackets (trim s) brackets with
  | some n => (n.id, some n)
  | none => if isWord uni (trim s) then (trim s, some ⟨trim s, trim s, .rectangle⟩) else (trim s, none)

/-- The variables of the loop, src/cli/markdown/mermaid/flowchart.rs 30-33. -/
structure Reading where
  nodes : AMap Str Node := []
  connections : List Connection := []
  subgraphs : List Subgraph := []
  current : Option Subgraph := none
deriving Repr

/-- `if !sg.nodes.contains(&id) { sg.nodes.push(id) }`. -/
def Subgraph.add (sg : Subgraph) (id : Str) : Subgraph :=
  if id ∈ sg.nodes then sg else { sg with nodes := sg.nodes ++ [id] }

/-- `entry(id).or_insert(node)` and the membership in the subgraph, src/cli/markdown/mermaid/flowchart.rs 69-76, 81-88
and 99-106. -/
def Reading.declare (st : Reading) (d : Str × Option Node) : Reading :=
  match d.2 with
  | none => st
  | some n => { st with
      nodes := if st.nodes.has d.1 then st.nodes else st.nodes ++ [(d.1, n)]
      current := st.current.map (·.add d.1) }

/-- A line with an arrow, src/cli/markdown/mermaid/flowchart.rs 65-95. -/
def Reading.edge (uni : Char → Bool) (st : Reading) (u v : Str) : Reading :=
  let source := parseNodeDef uni u
  let rest := extractArrowLabel (parseArrowAndRest v).2
  let target := parseNodeDef uni rest.1
  let st := (st.declare source).declare target
  { st with connections := st.connections ++ [⟨source.1, target.1, rest.2, (parseArrowAndRest v).1⟩] }

/-- `subgraphs.push(sg)`, src/cli/markdown/mermaid/flowchart.rs 57-59. -/
def Reading.close (st : Reading) : Reading :=
  match st.current with
  | some sg => { st with subgraphs := st.subgraphs ++ [sg], current := none }
  | none => st

/-- One line, src/cli/markdown/mermaid/flowchart.rs 36-107. -/
def Reading.line (uni : Char → Bool) (st : Reading) (l : Str) : Reading :=
  if trim l = [] ∨ startsWith c!"%%" (trim l) then st
  else match stripPrefix? c!"subgraph" (trim l) with
    | some name => { st with current := some ⟨trim name, []⟩ }
    | none =>
      if trim l = c!"end" then st.close
      else match splitConnection (trim l) with
        | some (u, v) => st.edge uni u v
        | none => st.declare (parseNodeDef uni (trim l))

/-- `parse`, src/cli/markdown/mermaid/flowchart.rs 25-116, with the nodes in order of appearance. Lines are trimmed and
empty ones skipped, so splitting at every line feed gives what `lines()` gives. -/
def parse (uni : Char → Bool) (code : Str) : Flowchart :=
  let lines := splitChar '\n' code
  let st := lines.tail.foldl (Reading.line uni) {}
  ⟨parseDirection (lines.headD []), st.nodes.map (·.2), st.connections, st.subgraphs⟩

/-! ### Drawing -/

/-- A shape: src/generator/shapes.rs 578-594 without colours. -/
structure Drawn where
  kind : Str
  x : Nat
  y : Nat
  width : Nat
  height : Nat
  id : Option Nat
  text : Option Str
deriving DecidableEq, Repr

/-- A connector: src/generator/connectors.rs 195-225 without colours. -/
structure Wire where
  elbow : Bool
  startX : Nat
  startY : Nat
  endX : Nat
  endY : Nat
  dashed : Bool
  startShape : Option Nat
  endShape : Option Nat
deriving DecidableEq, Repr

/-- src/cli/markdown/mermaid/flowchart.rs 215. -/
def nodeWidth : Nat := 1400000
/-- src/cli/markdown/mermaid/flowchart.rs 216. -/
def nodeHeight : Nat := 500000
/-- src/cli/markdown/mermaid/flowchart.rs 217. -/
def hSpacing : Nat := 1800000
/-- src/cli/markdown/mermaid/flowchart.rs 218. -/
def vSpacing : Nat := 900000

/-- src/cli/markdown/mermaid/flowchart.rs 447-454. -/
def NodeShape.kind : NodeShape → Str
  | .rectangle => c!"Rectangle"
  | .roundedRect => c!"RoundedRectangle"
  | .stadium => c!"RoundedRectangle"
  | .diamond => c!"Diamond"
  | .circle => c!"Ellipse"
  | .hexagon => c!"Hexagon"

/-- `create_node_shape`, src/cli/markdown/mermaid/flowchart.rs 439-467. -/
def nodeShape (n : Node) (x y id : Nat) : Drawn := ⟨n.shape.kind, x, y, nodeWidth, nodeHeight, some id, some n.label⟩

/-- The variables of `generate_elements`, src/cli/markdown/mermaid/flowchart.rs 199-228. -/
structure Drawing where
  shapes : List Drawn := []
  connectors : List Wire := []
  bounds : List (Nat × Nat × Nat × Nat) := []
  positions : AMap Str (Nat × Nat) := []
  ids : AMap Str Nat := []
  next : Nat := 10
deriving Repr

/-- Placing a node, src/cli/markdown/mermaid/flowchart.rs 268-274, 288-294 and 321-327. -/
def Drawing.place (d : Drawing) (n : Node) (x y : Nat) : Drawing :=
  { d with
    positions := d.positions.insert n.id (x, y)
    ids := d.ids.insert n.id d.next
    shapes := d.shapes ++ [nodeShape n x y d.next]
    bounds := d.bounds ++ [(x, y, nodeWidth, nodeHeight)]
    next := d.next + 1 }

/-- The nodes of a subgraph from index `i` on, src/cli/markdown/mermaid/flowchart.rs 263-276. -/
def placeMembers (all : List Node) (x y : Nat) : Nat → List Str → Drawing → Drawing
  | _, [], d => d
  | i, id :: ids, d =>
    placeMembers all x y (i + 1) ids
      (match all.find? fun n => n.id = id with
       | some n => d.place n (x + 200000) (y + 250000 + 200000 + i * vSpacing)
       | none => d)

/-- Height of a subgraph, src/cli/markdown/mermaid/flowchart.rs 238. -/
def Subgraph.height (sg : Subgraph) : Nat := sg.nodes.length * vSpacing + 400000 + 250000

/-- Background and title of a subgraph, src/cli/markdown/mermaid/flowchart.rs 243-260. -/
def Drawing.frame (d : Drawing) (sg : Subgraph) (x y : Nat) : Drawing :=
  { d with
    shapes := d.shapes ++
      [⟨c!"RoundedRectangle", x, y, nodeWidth + 400000, sg.height, none, none⟩,
       ⟨c!"Rectangle", x + 50000, y + 50000, nodeWidth + 400000 - 100000, 250000, some d.next, some sg.name⟩]
    bounds := d.bounds ++ [(x, y, nodeWidth + 400000, sg.height)]
    next := d.next + 1 }

/-- The subgraphs from left to right, src/cli/markdown/mermaid/flowchart.rs 235-279. The second component is the final
`subgraph_x`. -/
def placeSubgraphs (all : List Node) : List Subgraph → Nat → Drawing → Drawing × Nat
  | [], x, d => (d, x)
  | sg :: sgs, x, d =>
    placeSubgraphs all sgs (x + (nodeWidth + 400000 + 600000)) (placeMembers all x 1600000 0 sg.nodes (d.frame sg x 1600000))

/-- The other nodes, src/cli/markdown/mermaid/flowchart.rs 282-298. -/
def placeOrphans (x : Nat) : List Node → Nat → Drawing → Drawing
  | [], _, d => d
  | n :: ns, y, d =>
    if d.positions.has n.id then placeOrphans x ns y d else placeOrphans x ns (y + vSpacing) (d.place n x y)

/-- src/cli/markdown/mermaid/flowchart.rs 220-223. -/
def Direction.horizontal : Direction → Bool
  | .leftToRight => true
  | .rightToLeft => true
  | _ => false

/-- Position of node `i`, src/cli/markdown/mermaid/flowchart.rs 303-319. -/
def gridPosition (horizontal : Bool) (count i : Nat) : Nat × Nat :=
  let cols := if horizontal then min count 5 else 1
  (1000000 + i % cols * hSpacing, 1800000 + (if horizontal then i / cols else i) * vSpacing)

/-- The grid without subgraphs, src/cli/markdown/mermaid/flowchart.rs 305-328. -/
def placeGrid (horizontal : Bool) (count : Nat) : Nat → List Node → Drawing → Drawing
  | _, [], d => d
  | i, n :: ns, d =>
    placeGrid horizontal count (i + 1) ns
      (d.place n (gridPosition horizontal count i).1 (gridPosition horizontal count i).2)

/-- `|a - b|`. -/
def dist (a b : Nat) : Nat := a - b + (b - a)

/-- End points of a connector, src/cli/markdown/mermaid/flowchart.rs 341-361. -/
def wireEnds (horizontal : Bool) (u v : Nat × Nat) : (Nat × Nat) × (Nat × Nat) :=
  if horizontal then ((u.1 + nodeWidth, u.2 + nodeHeight / 2), (v.1, v.2 + nodeHeight / 2))
  else ((u.1 + nodeWidth / 2, u.2 + nodeHeight), (v.1 + nodeWidth / 2, v.2))

/-- src/cli/markdown/mermaid/flowchart.rs 364-389. -/
def wire (a b : Nat × Nat) (dashed : Bool) (s t : Option Nat) : Wire :=
  ⟨!(dist a.1 b.1 < 100000 || dist a.2 b.2 < 100000), a.1, a.2, b.1, b.2, dashed, s, t⟩

/-- The label of a connector, src/cli/markdown/mermaid/flowchart.rs 392-418. -/
def Drawing.label (d : Drawing) (a b : Nat × Nat) : Option Str → Drawing
  | none => d
  | some l => { d with
      shapes := d.shapes ++ [⟨c!"Rectangle", (a.1 + b.1) / 2 - 600000 / 2, (a.2 + b.2) / 2 - 250000 / 2, 600000, 250000,
        some d.next, some l⟩]
      bounds := d.bounds ++ [((a.1 + b.1) / 2 - 600000 / 2, (a.2 + b.2) / 2 - 250000 / 2, 600000, 250000)]
      next := d.next + 1 }

/-- One connection, src/cli/markdown/mermaid/flowchart.rs 333-421. -/
def Drawing.connect (horizontal : Bool) (d : Drawing) (c : Connection) : Drawing :=
  match d.positions.get c.source, d.positions.get c.target with
  | some u, some v =>
    let e := wireEnds horizontal u v
    let d' := d.label e.1 e.2 c.label
    { d' with connectors := d'.connectors ++
        [wire e.1 e.2 (c.arrow = .dotted) (d.ids.get c.source) (d.ids.get c.target)] }
  | _, _ => d

/-- All nodes, src/cli/markdown/mermaid/flowchart.rs 231-329. -/
def layout (f : Flowchart) : Drawing :=
  if f.subgraphs ≠ [] then
    placeOrphans (placeSubgraphs f.nodes f.subgraphs 500000 {}).2 f.nodes 1600000
      (placeSubgraphs f.nodes f.subgraphs 500000 {}).1
  else placeGrid f.direction.horizontal f.nodes.length 0 f.nodes {}

/-- The bounding box of some rectangles: x, y, width, height (src/cli/markdown/mermaid/types.rs 97-120). -/
def boundingBox : List (Nat × Nat × Nat × Nat) → Option (Nat × Nat × Nat × Nat)
  | [] => none
  | p :: ps =>
    let x := ps.foldl (fun m q => min m q.1) (min 4294967295 p.1)
    let y := ps.foldl (fun m q => min m q.2.1) (min 4294967295 p.2.1)
    let r := ps.foldl (fun m q => max m (q.1 + q.2.2.1)) (p.1 + p.2.2.1)
    let b := ps.foldl (fun m q => max m (q.2.1 + q.2.2.2)) (p.2.1 + p.2.2.2)
    some (x, y, r - x, b - y)

/-- The elements of a diagram, src/cli/markdown/mermaid/types.rs 124-129. -/
structure Elements where
  shapes : List Drawn
  connectors : List Wire
  bounds : Option (Nat × Nat × Nat × Nat)
deriving DecidableEq, Repr

/-- `generate_elements`, src/cli/markdown/mermaid/flowchart.rs 198-432. -/
def elements (f : Flowchart) : Elements :=
  if f.nodes = [] then ⟨[], [], none⟩
  else
    let d := f.connections.foldl (Drawing.connect f.direction.horizontal) (layout f)
    ⟨d.shapes, d.connectors, boundingBox d.bounds⟩

/-! ### On the slide -/

/-- The offset, src/cli/markdown/parser.rs 446-459. -/
def offset : Option (Nat × Nat × Nat × Nat) → Nat × Nat
  | none => (0, 0)
  | some (x, y, w, h) => ((9144000 - w) / 2 - x, 1200000 + (5658000 - h) / 2 - y)

/-- src/cli/markdown/parser.rs 465-469. -/
def Drawn.move (s : Drawn) (o : Nat × Nat) : Drawn := { s with x := s.x + o.1, y := s.y + o.2 }

/-- src/cli/markdown/parser.rs 476-482. -/
def Wire.move (c : Wire) (o : Nat × Nat) : Wire :=
  { c with startX := c.startX + o.1, startY := c.startY + o.2, endX := c.endX + o.1, endY := c.endY + o.2 }

/-- The diagram as put on the slide, src/cli/markdown/parser.rs 435-483. -/
def onSlide (e : Elements) : List Drawn × List Wire :=
  (e.shapes.map (·.move (offset e.bounds)), e.connectors.map (·.move (offset e.bounds)))

end PptRs.Flow
