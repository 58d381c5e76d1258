import Verif.Model.Import
import Verif.Model.External
import Verif.Model.Charts

/-!
# Commands and tools

src/mcp/mod.rs, src/cli/commands.rs and src/bin/pptcli.rs. A command gets the world it works in and returns its answer and
what it wrote where. That a file is written in part is left out here (see C56); numbers of charts are given as text.
-/

namespace PptRs.Handlers

open PptRs PptRs.Import PptRs.External PptRs.Draw

/-- A slide: text, shapes, and charts with their places. -/
structure DeckSlide where
  text : SlideText
  shapes : List Shape := []
  charts : List (Chart × ChartBox) := []

/-- `Presentation`, src/api.rs 14-18, without the settings. -/
structure Pres where
  title : Str := []
  slides : List DeckSlide := []

/-- A loaded presentation as a deck. -/
def ofLoaded (l : Loaded) : Pres := ⟨l.title, l.slides.map fun s => { text := s.text, shapes := s.shapes }⟩

/-- The formats of files. -/
inductive Format where
  | pptx | html | pdf | markdown | png
deriving DecidableEq, Repr

/-- What the system does: the presentation in a file (`none`: an error), and whether a presentation can be written to a
path in a format. -/
structure World where
  load : Str → Option Pres
  canWrite : Format → Str → Bool

/-- The answer of a command. -/
inductive Reply where
  | ok (text : Str)
  | error (text : Str)
deriving DecidableEq, Repr

/-- The answer and what was written. -/
structure Result where
  reply : Reply
  written : List (Str × Format × Pres) := []

/-- Nothing was done. -/
def fail (text : Str) : Result := { reply := .error text }

/-- `Presentation::save`, src/api.rs 87-113, and the answer. -/
def saveAs (w : World) (d : Pres) (path : Str) (ok bad : Str) : Result :=
  if d.slides = [] then fail bad
  else if w.canWrite .pptx path then { reply := .ok ok, written := [(path, .pptx, d)] }
  else fail bad

/-- `SlideArg`, src/mcp/mod.rs 29-35. -/
structure SlideArg where
  title : Str
  bullets : List Str := []
  layout : Option Str := none

/-- `handle_create_presentation`, src/mcp/mod.rs 212-249. -/
def create (w : World) (title path : Str) (slides : List SlideArg) : Result :=
  let out := slides.map fun s => ({ text := s.bullets.foldl SlideText.addBullet (SlideText.new s.title) } : DeckSlide)
  if out = [] then fail c!"No slides provided"
  else
    let d : Pres := ⟨title, out⟩
    saveAs w d path (c!"Created presentation '" ++ title ++ c!"' with " ++ dec d.slides.length ++ c!" slide(s) at: " ++ path)
      c!"Failed to save"

/-- `TableSlideArg`, src/mcp/mod.rs 71-74. -/
structure TableArg where
  title : Str
  rows : List (List Str)

/-- The table of a slide, src/mcp/mod.rs 434-449. -/
def argTable (rows : List (List Str)) : TableIn where
  rows := rows.mapIdx fun i r => { height := none, cells := r.map fun t => { text := t, bold := i = 0 } }
  columnWidths := List.replicate (rows.headD []).length 2800000
  x := 0
  y := 0

/-- The loop of `handle_create_with_tables`, src/mcp/mod.rs 421-452. -/
def tableSlides (tables : List TableArg) : List DeckSlide :=
  tables.filterMap fun t =>
    if t.rows = [] then none
    else if (t.rows.headD []).length = 0 then none
    else some { text := { SlideText.new t.title with table := some (argTable t.rows) } }

/-- `handle_create_with_tables`, src/mcp/mod.rs 412-462. -/
def createWithTables (w : World) (title path : Str) (tables : List TableArg) : Result :=
  saveAs w ⟨title, tableSlides tables⟩ path
    (c!"Created presentation with " ++ dec tables.length ++ c!" table slide(s) at: " ++ path) c!"Failed to save"

/-- `ChartSlideArg`, src/mcp/mod.rs 83-89. -/
structure ChartArg where
  slideTitle : Str
  chartTitle : Str
  chartType : Str
  categories : List Str
  series : List ChartSeries

/-- The type of a chart, src/mcp/mod.rs 479-484. -/
def chartTypeOf (s : Str) : ChartType :=
  if s = c!"line" then .line else if s = c!"pie" then .pie else if s = c!"area" then .area else .bar

/-- `handle_create_with_charts`, src/mcp/mod.rs 464-511. -/
def createWithCharts (w : World) (title path : Str) (charts : List ChartArg) : Result :=
  saveAs w
    ⟨title, charts.map fun c =>
      { text := SlideText.new c.slideTitle
        charts := [(⟨c.chartTitle, chartTypeOf c.chartType, c.categories, c.series⟩, ⟨1000000, 1000000, 4000000, 3000000⟩)] }⟩
    path (c!"Created presentation with " ++ dec charts.length ++ c!" chart slide(s) at: " ++ path) c!"Failed to save"

/-- `add_presentation`, src/api.rs 52-55. -/
def Pres.append (a b : Pres) : Pres := { a with slides := a.slides ++ b.slides }

/-- The loop over the further files, src/mcp/mod.rs 375-380 and src/bin/pptcli.rs 141-151; `Except.error` is the file that
could not be loaded. -/
def loadMore (w : World) : Pres → List Str → Except Str Pres
  | d, [] => .ok d
  | d, p :: ps =>
    match w.load p with
    | none => .error p
    | some e => loadMore w (d.append e) ps

/-- `handle_merge_pptx`, src/mcp/mod.rs 360-392. -/
def merge (w : World) (inputs : List Str) (path : Str) : Result :=
  if inputs.length < 2 then fail c!"At least 2 input files required"
  else
    match inputs with
    | [] => fail []
    | p :: ps =>
      match w.load p with
      | none => fail (c!"Failed to load " ++ p)
      | some d =>
        match loadMore w d ps with
        | .error q => fail (c!"Failed to load " ++ q)
        | .ok d =>
          saveAs w d path (c!"Merged " ++ dec inputs.length ++ c!" files (" ++ dec d.slides.length ++ c!" total slides) to: " ++ path)
            c!"Failed to save merged file"

/-- The `merge` command, src/bin/pptcli.rs 131-160; `inputs` is not empty. -/
def mergeCommand (w : World) (first : Str) (more : List Str) (path : Str) : Result :=
  match w.load first with
  | none => fail (c!"Error loading " ++ first)
  | some d =>
    match loadMore w d more with
    | .error q => fail (c!"Error loading " ++ q)
    | .ok d => saveAs w d path (c!"Merge completed: " ++ path) c!"Error saving merged file"

/-- Writing a deck in another format. -/
def exportAs (w : World) (d : Pres) (f : Format) (path : Str) (ok bad : Str) : Result :=
  if w.canWrite f path then { reply := .ok ok, written := [(path, f, d)] } else fail bad

/-- The format by its name, src/mcp/mod.rs 331-352. -/
def formatOf (s : Str) : Option Format :=
  if s = c!"html" then some .html
  else if s = c!"pdf" then some .pdf
  else if s = c!"markdown" then some .markdown
  else if s = c!"png" then some .png
  else none

/-- `handle_export_pptx`, src/mcp/mod.rs 324-358. -/
def exportTool (w : World) (input path format : Str) : Result :=
  match formatOf format with
  | none => fail (c!"Unsupported format: " ++ format ++ c!". Use html, pdf, markdown, or png.")
  | some f =>
    match w.load input with
    | none => fail c!"Failed to load presentation"
    | some d => exportAs w d f path (c!"Exported to " ++ format ++ c!" at: " ++ path) c!"Export failed"

/-- The format of the `export` command, src/bin/pptcli.rs 102-115. -/
def exportFormat (asked : Option Format) (path : Str) : Format :=
  asked.getD
    (if endsWith c!".pdf" (path.map Char.toLower) then .pdf
     else if endsWith c!".html" (path.map Char.toLower) then .html
     else if endsWith c!".png" (path.map Char.toLower) then .png
     else .pdf)

/-- The `export` command, src/bin/pptcli.rs 88-130. -/
def exportCommand (w : World) (input path : Str) (asked : Option Format) : Result :=
  match w.load input with
  | none => fail c!"Error loading presentation"
  | some d => exportAs w d (exportFormat asked path) path (c!"Export completed: " ++ path) c!"Error exporting"

/-- The output of `md2ppt` and `html2ppt` if none is given, src/bin/pptcli.rs 36-53 and 171-188, for an input that does not
end with a slash. -/
def defaultOutput (input : Str) : Str :=
  match rsplitOnceChar? '/' input with
  | none => fileStem input ++ c!".pptx"
  | some (dir, name) => (if dir = [] then c!"/" else dir) ++ c!"/" ++ fileStem name ++ c!".pptx"

/-- `handle_validate_pptx`, src/mcp/mod.rs 394-410, for a file that can be read: the messages of the errors and of the
warnings. -/
def validateTool (errors _warnings : List Str) : Reply :=
  if errors = [] then .ok c!"Validation passed. No issues found."
  else .ok (joinStr c!"\n" ((c!"Found " ++ dec errors.length ++ c!" issue(s):") :: errors.map fun e => c!"  [error] " ++ e))

end PptRs.Handlers
