import Verif.Model.Import
import Verif.Spec.Editor
import Verif.Model.PackageText
import Verif.Model.Parts
import Verif.Model.MdImport
import Verif.Model.HtmlStyle
import Verif.Model.WebParser

/-!
# Whole runs

From slides to a file and from the file to a loaded presentation; from Markdown, HTML and web pages to a file.
-/

namespace PptRs.Whole

open PptRs PptRs.Import

/-- A slide with text, a table and notes; without shapes, pictures, charts, code, connectors and ink. -/
structure PageIn where
  text : SlideText
  notes : Option Str := none

/-- What the package structure depends on. -/
def PageIn.slideIn (s : PageIn) : SlideIn where
  title := s.text.title
  layout := s.text.layout
  bullets := s.text.effective.length
  hasTable := s.text.table.isSome
  shapes := []
  images := []
  notes := s.notes
  codeBlocks := 0
  connectors := 0
  charts := 0
  ink := false

/-- The slides as the package builder sees them. -/
def deckOf (l : List PageIn) : Deck := .custom (l.map PageIn.slideIn)

/-- The texts of the slides and of the document properties, src/generator/builder.rs 1148-1172 and 700-703 (where the
properties get the title as it is); `secs` is the time. The other parts are arbitrary. -/
def pageTexts (secs : Nat) (title : Str) (l : List PageIn) : PartTexts
  | .slide i => (l[i - 1]?).map fun s => s.text.xml
  | .core => some (createCorePropsXml secs title)
  | _ => none

/-- The bytes of an entry; `other` gives those of the parts that are not spelled out. -/
def entryBytes (d : Deck) (st : BuildSettings) (desc : Str → Str) (texts : PartTexts) (other : PartName → Bytes) (e : Entry) : Bytes :=
  match entryText d st desc texts e with
  | some t => encode t
  | none => other e.name

/-- The archive that `create_pptx_with_settings` writes, src/generator/builder.rs 713-807; `desc` are the descriptions of
fonts and `other` the bytes of the parts that are not spelled out. -/
def written (secs : Nat) (title : Str) (l : List PageIn) (st : BuildSettings) (desc : Str → Str) (other : PartName → Bytes) :
    List (Str × Bytes) :=
  (buildPackage (deckOf l) st).map fun e => (e.name.path, entryBytes (deckOf l) st desc (pageTexts secs title l) other e)

/-- `Presentation::from_path` on an archive: src/opc/package.rs, then src/import/mod.rs 11-77. -/
def opened (archive : List (Str × Bytes)) : Option Loaded := importPptx (Package.openReader archive)

/-- Sessions of the editor on a file: each opens it (src/oxml/editor.rs 26-34), makes calls and saves it (272-276), the parts in
whatever order the hash map has. -/
inductive Edited : List (Str × Bytes) → List (List Editor.Op) → List (Str × Bytes) → Prop
  | done (a : List (Str × Bytes)) : Edited a [] a
  | session {a b : List (Str × Bytes)} {ops : List Editor.Op} {rest : List (List Editor.Op)} (entries : List (Str × Bytes))
      (order : (Editor.runAll (Editor.ofPackage (Package.openReader a)) ops).2.package.Perm entries)
      (later : Edited (Package.saveWriter entries) rest b) : Edited a (ops :: rest) b

/-! ### Sources -/

/-- A table of texts as the slide writer gets it, src/generator/table/builder.rs 78-115. -/
def tableIn (t : TextTable) : TableIn where
  rows := t.rows.map fun r => { height := none, cells := r.map fun c => { text := c } }
  columnWidths := t.widths
  x := t.x
  y := t.y

/-- No code, diagrams and pictures: such slides are modelled by the parts of the writer only. -/
def mdSimple (s : MdImport.Slide) : Bool := s.codes.isEmpty && s.shapes.isEmpty && s.images.isEmpty

/-- The same for HTML. -/
def htmlSimple (s : Html.StyledSlide) : Bool := s.text.code.isEmpty && s.text.images.isEmpty

/-- A simple slide of the Markdown importer. -/
def ofMd (s : MdImport.Slide) : PageIn where
  text := { (s.bullets.foldl SlideText.addBullet (SlideText.new s.title)) with table := s.table.map tableIn }
  notes := s.notes

/-- A simple slide of the HTML importer. -/
def ofHtml (s : Html.StyledSlide) : PageIn where
  text := { s.written with table := s.text.table.map tableIn }
  notes := s.text.notes

/-- The slides of the web converter: the first is a title slide, src/web2ppt/converter.rs 114-125. -/
def ofWeb : List WebSlide → List PageIn
  | [] => []
  | s :: l =>
    { text := { (s.bullets.foldl SlideText.addBullet (SlideText.new s.title)) with layout := .centeredTitle } } ::
      l.map fun s => { text := s.bullets.foldl SlideText.addBullet (SlideText.new s.title) }

/-- `FromMarkdownCommand::execute` up to the file, src/cli/commands.rs 50-80: `none` is an error, a crash or a
slide that is not simple. -/
def mdFile (load : Str → Bool) (dt : Str → Str) (secs : Nat) (title : Option Str) (desc : Str → Str) (other : PartName → Bytes)
    (es : List MdImport.Ev) : Option (List (Str × Bytes)) :=
  match MdImport.importMd load dt es with
  | some (some slides) =>
    if slides.all mdSimple then some (written secs (title.getD c!"Presentation from Markdown") (slides.map ofMd) .none desc other)
    else none
  | _ => none

/-- `FromHtmlCommand::execute` up to the file, src/cli/commands.rs 84-132. -/
def htmlFile (env : HtmlEnv) (o : HtmlOptions) (secs : Nat) (title : Option Str) (desc : Str → Str)
    (other : PartName → Bytes) (page : Str) : Option (List (Str × Bytes)) :=
  match Html.parseHtmlStyled env o page with
  | some (.ok slides) =>
    if slides.isEmpty || !slides.all htmlSimple then none
    else some (written secs (title.getD c!"Presentation from HTML") (slides.map ofHtml) .none desc other)
  | _ => none

/-- `Web2Ppt::convert`, src/web2ppt/converter.rs 100-106. -/
def webFile (cfg : WebConfig) (page : WebPage) (title : Option Str) (source : Bool) (secs : Nat) (desc : Str → Str)
    (other : PartName → Bytes) : List (Str × Bytes) :=
  written secs (title.getD page.title) (ofWeb (buildWebSlides cfg page title source)) .none desc other

end PptRs.Whole
