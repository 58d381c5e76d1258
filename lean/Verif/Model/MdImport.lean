import Verif.Model.Tables

/-!
# Markdown import

The Markdown text is read by the pulldown-cmark crate, which calls the importer once for each event. A crash is `none`.
Left out: the fields of a slide the importer never sets, and the formatting of table cells. `load url` says whether the
picture at `url` can be read (from the disk or the network); `diagramTitle code` is the title of the kind of diagram
drawn by a Mermaid block. The shapes of a Mermaid block are kept as its source (they are modelled in
`Verif.Model.Flowchart`). `task_items` is never filled and `current_task_checked`, `in_table_head` are never read.
-/

namespace PptRs.MdImport

/-- The events of pulldown-cmark the importer matches on, src/cli/markdown/parser.rs 106-307. -/
inductive Ev where
  | heading (level : Nat) | headingEnd (level : Nat)
  | list | listEnd | item | itemEnd
  | table | tableEnd | tableHead | tableHeadEnd | row | rowEnd | cell | cellEnd
  | code (lang : Option Str) | codeEnd
  | quote | quoteEnd
  | strong | strongEnd | emph | emphEnd | strike | strikeEnd
  | codeSpan (s : Str) | html (s : Str)
  | image (url title : Str) | imageEnd
  | rule | text (s : Str) | softBreak | hardBreak
  | para | paraEnd
  | taskMarker (checked : Bool) | other
deriving DecidableEq, Repr

/-- What is drawn on a slide besides its text: the shape standing for a picture that could not be read, or the shapes
of a diagram. -/
inductive Figure where
  | placeholder (label : Str)
  | diagram (code : Str)
deriving DecidableEq, Repr

/-- The part of `SlideContent` set by the importer. -/
structure Slide where
  title : Str
  bullets : List Str := []
  table : Option TextTable := none
  codes : List (Str × Str) := []
  notes : Option Str := none
  shapes : List Figure := []
  images : List Str := []
deriving DecidableEq, Repr

/-- src/cli/markdown/parser.rs 27-56. -/
structure State where
  slides : List Slide := []
  current : Option Slide := none
  text : Str := []
  inList : Bool := false
  items : List Str := []
  inTable : Bool := false
  rows : List (List Str) := []
  row : List Str := []
  cell : Str := []
  inCode : Bool := false
  code : Str := []
  lang : Option Str := none
  bold : Bool := false
  italic : Bool := false
  struck : Bool := false
  inQuote : Bool := false
  quote : Str := []
  pending : Option (Str × Str) := none
deriving DecidableEq, Repr

/-- The text with its marks, src/cli/markdown/parser.rs 310-320. -/
def marked (b i s : Bool) (t : Str) : Str :=
  if b && i then c!"***" ++ t ++ c!"***"
  else if b then c!"**" ++ t ++ c!"**"
  else if i then c!"*" ++ t ++ c!"*"
  else if s then c!"~~" ++ t ++ c!"~~"
  else t

/-- `push_text`, src/cli/markdown/parser.rs 309-331. -/
def State.push (st : State) (t : Str) : State :=
  let f := marked st.bold st.italic st.struck t
  if st.inCode then { st with code := st.code ++ t }
  else if st.inTable then { st with cell := st.cell ++ f }
  else if st.inQuote then { st with quote := st.quote ++ f }
  else { st with text := st.text ++ f }

/-- Change the current slide, starting one with the given title if there is none: the pattern of `add_paragraph`
(333-341), `flush_list_items` (348-358), `flush_table` (399-407), `flush_code_block` (426-432), `add_mermaid_diagram`
(485-501) and `add_image_placeholder` (519-540) of src/cli/markdown/parser.rs. -/
def State.onSlide (st : State) (title : Str) (f : Slide → Slide) : State :=
  { st with current := some (f (st.current.getD { title := title })) }

/-- `flush_list_items`, src/cli/markdown/parser.rs 343-389. -/
def State.flushItems (st : State) : State :=
  if st.items = [] then st
  else { st.onSlide c!"Slide" fun s => { s with bullets := s.bullets ++ st.items } with items := [] }

/-- `finalize_current_slide`, src/cli/markdown/parser.rs 598-604. -/
def State.finalize (st : State) : State :=
  { st.flushItems with slides := st.flushItems.slides ++ st.flushItems.current.toList, current := none }

/-- `flush_table`, src/cli/markdown/parser.rs 391-408. -/
def State.flushTable (st : State) : Option State :=
  if st.rows = [] then some st
  else (tableFromStringRows st.rows).map fun t =>
    { st.onSlide c!"Data Table" fun s => { s with table := some t } with rows := [] }

/-- `flush_code_block`, src/cli/markdown/parser.rs 410-433. -/
def State.flushCode (diagramTitle : Str → Str) (st : State) : State :=
  if st.code = [] then st
  else if st.lang.getD c!"text" = c!"mermaid" then
    { st.onSlide (diagramTitle st.code) fun s => { s with shapes := s.shapes ++ [.diagram st.code] } with code := [], lang := none }
  else
    { st.onSlide c!"Code" fun s => { s with codes := s.codes ++ [(trim st.code, st.lang.getD c!"text")] } with
      code := [], lang := none }

/-- `flush_blockquote`, src/cli/markdown/parser.rs 504-514. -/
def State.flushQuote (st : State) : State :=
  if st.quote = [] then st
  else { st with quote := [], current := st.current.map fun s => { s with notes := some (trim st.quote) } }

/-- `add_image_placeholder`, src/cli/markdown/parser.rs 516-541. -/
def State.addImage (load : Str → Bool) (st : State) (url alt : Str) : State :=
  if load url then st.onSlide c!"Image" fun s => { s with images := s.images ++ [url] }
  else st.onSlide c!"Image" fun s =>
    { s with shapes := s.shapes ++ [.placeholder (c!"[Image: " ++ (if alt = [] then url else alt) ++ c!"]")] }

/-- The mark put around the text of an HTML tag, src/cli/markdown/parser.rs 234-258. -/
def htmlMark (h : Str) : Option Str :=
  if containsStr c!"<mark>" h || containsStr c!"<ins>" h then some c!"=="
  else if containsStr c!"<sub>" h then some c!"~"
  else if containsStr c!"<sup>" h then some c!"^"
  else none

/-- `&html_str[start + 1..end]`, src/cli/markdown/parser.rs 236-239: crashes when the range is backwards. -/
def htmlSlice (h : Str) : Option (Option Str) :=
  match splitOnce? c!">" h, splitOnce? c!"</" h with
  | some (a, _), some (b, _) => if b.length < a.length + 1 then none else some (some ((h.take b.length).drop (a.length + 1)))
  | _, _ => some none

/-- `Event::InlineHtml`, src/cli/markdown/parser.rs 231-259. -/
def State.html (st : State) (h : Str) : Option State :=
  match htmlMark h with
  | none => some st
  | some m => (htmlSlice h).map fun o =>
    match o with
    | none => st
    | some t => st.push (m ++ t ++ m)

/-- Whether paragraphs are taken as text of the slide, src/cli/markdown/parser.rs 292, 297. -/
def State.open (st : State) : Bool := !st.inList && !st.inTable && !st.inQuote && !st.inCode

/-- `End(Heading)`, src/cli/markdown/parser.rs 115-123. -/
def State.headingEnd (st : State) (level : Nat) : State :=
  if level = 1 then { st with text := [], current := some { title := trim st.text } }
  else { st with text := [], current := st.current.map fun s => { s with bullets := s.bullets ++ [c!"**" ++ trim st.text ++ c!"**"] } }

/-- `End(Item)`, src/cli/markdown/parser.rs 140-149. -/
def State.itemEnd (st : State) : State :=
  { st with text := [], items := if trim st.text = [] then st.items else st.items ++ [trim st.text] }

/-- `End(TableHead)` and `End(TableRow)`, src/cli/markdown/parser.rs 165-170 and 174-178. -/
def State.rowEnd (st : State) : State :=
  if st.row = [] then st else { st with rows := st.rows ++ [st.row], row := [] }

/-- `Rule`, src/cli/markdown/parser.rs 274-280. -/
def State.rule (st : State) : State :=
  { st.finalize with current := st.finalize.slides.getLast?.map fun s => { title := s.title ++ c!" (continued)" } }

/-- `End(Paragraph)`, src/cli/markdown/parser.rs 296-303. -/
def State.paraEnd (st : State) : State :=
  if st.open then
    let t := trim st.text
    if t = [] then { st with text := [] }
    else { st.onSlide c!"Slide" fun s => { s with bullets := s.bullets ++ [t] } with text := [] }
  else st

/-- `End(Image)`, src/cli/markdown/parser.rs 267-271. -/
def State.imageEnd (load : Str → Bool) (st : State) : State :=
  match st.pending with
  | none => st
  | some (url, alt) => { st.addImage load url alt with pending := none }

/-- `handle_event`, src/cli/markdown/parser.rs 106-307. -/
def handle (load : Str → Bool) (diagramTitle : Str → Str) (st : State) : Ev → Option State
  | .heading l => some { (if l = 1 then st.finalize else st) with text := [] }
  | .headingEnd l => some (st.headingEnd l)
  | .list => some { st with inList := true, items := [] }
  | .listEnd => some { st with inList := false }.flushItems
  | .item => some { st with text := [] }
  | .itemEnd => some st.itemEnd
  | .table => some { st with inTable := true, rows := [] }
  | .tableEnd => { st with inTable := false }.flushTable
  | .tableHead => some { st with row := [] }
  | .tableHeadEnd => some st.rowEnd
  | .row => some { st with row := [] }
  | .rowEnd => some st.rowEnd
  | .cell => some { st with cell := [] }
  | .cellEnd => some { st with row := st.row ++ [trim st.cell], cell := [] }
  | .code l => some { st with inCode := true, code := [], lang := if l = some [] then none else l }
  | .codeEnd => some ({ st with inCode := false }.flushCode diagramTitle)
  | .quote => some { st with inQuote := true, quote := [] }
  | .quoteEnd => some { st with inQuote := false }.flushQuote
  | .strong => some { st with bold := true }
  | .strongEnd => some { st with bold := false }
  | .emph => some { st with italic := true }
  | .emphEnd => some { st with italic := false }
  | .strike => some { st with struck := true }
  | .strikeEnd => some { st with struck := false }
  | .codeSpan s => some (st.push (c!"`" ++ s ++ c!"`"))
  | .html h => st.html h
  | .image u t => some { st with pending := some (u, t) }
  | .imageEnd => some (st.imageEnd load)
  | .rule => some st.rule
  | .text s => some (st.push s)
  | .softBreak => some (st.push c!" ")
  | .hardBreak => some (st.push c!" ")
  | .para => some (if st.open then { st with text := [] } else st)
  | .paraEnd => some st.paraEnd
  | .taskMarker _ => some st
  | .other => some st

/-- The loop of `parse`, src/cli/markdown/parser.rs 93-95. -/
def run (load : Str → Bool) (diagramTitle : Str → Str) : List Ev → State → Option State
  | [], st => some st
  | e :: es, st => (handle load diagramTitle st e).bind (run load diagramTitle es)

/-- `parse`, src/cli/markdown/parser.rs 85-104: the inner `none` is the error for a document without slides. -/
def importMd (load : Str → Bool) (diagramTitle : Str → Str) (es : List Ev) : Option (Option (List Slide)) :=
  (run load diagramTitle es {}).map fun st => if st.finalize.slides = [] then none else some st.finalize.slides

end PptRs.MdImport
