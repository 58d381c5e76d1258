import Verif.Model.CliRun
import Verif.Model.CliArgs

/-!
# Sessions of command lines

`main`, src/bin/pptcli.rs 10-262, from the arguments to the files after it, and sequences of runs. Importers, exporters and the generator
are parameters, and so is what clap prints. They get the files, because templates, pictures and PDF files are read from them; what they
write themselves to temporary files is left out.
-/

namespace PptRs.CliSession

open PptRs PptRs.CliRun PptRs.CliArgs PptRs.Handlers

/-- The files of a system. -/
abbrev Files := Str → Option Bytes

/-- What the tool is made of. `σ` are slides, `π` presentations, `γ` parsed pages. -/
structure Env (σ π γ : Type) where
  clap : List Str → Nat × List Str × List Str
  blank : Files → Str → Nat → Option Str → Option Bytes
  md : Files → Str → Except Str (List σ)
  html : HtmlOptions → Files → Str → Except Str (List σ)
  deck : Str → List σ → Option Bytes
  load : Bytes → Option π
  add : π → π → π
  build : π → Option Bytes
  fromPdf : Files → Str → Option π
  render : Format → π → Option Bytes
  png : Sys → Str → Str → After
  report : Files → Command → Nat × List Str × List Str
  fetcher : WebOptions.Config → Bool
  fetch : WebOptions.Config → Str → Option Str
  page : WebOptions.Config → Str → Str → Option γ
  convert : WebOptions.Config → WebOptions.Options → γ → Option Bytes

variable {σ π γ : Type}

/-- `Presentation::from_path`, src/api.rs 116-119. -/
def open? (e : Env σ π γ) (files : Files) (path : Str) : Option π := (files path).bind e.load

/-- The loop over the further files, src/bin/pptcli.rs 141-151. -/
def addAll (e : Env σ π γ) (files : Files) : π → List Str → Except Str π
  | p, [] => .ok p
  | p, a :: l =>
    match open? e files a with
    | some q => addAll e files (e.add p q) l
    | none => .error a

/-- The branch `Merge`, src/bin/pptcli.rs 131-160; `inputs` has at least one file. -/
def merge (e : Env σ π γ) (s : Sys) (output : Str) (inputs : List Str) : After :=
  let first := c!"Merging " ++ dec inputs.length ++ c!" files into " ++ output ++ c!"..."
  match inputs with
  | [] => stop s.files [] [first] c!"panicked"
  | a :: l =>
    match open? e s.files a with
    | none => stop s.files [] [first] (c!"Error loading " ++ a)
    | some p =>
      match addAll e s.files p l with
      | .error b => stop s.files [] [first] (c!"Error loading " ++ b)
      | .ok p =>
        match e.build p with
        | none => stop s.files [] [first] c!"Error saving merged file"
        | some b => writeOut s [] output b [first] [c!"✓ Merge completed: " ++ output] c!"Error saving merged file"

/-- The branch `Export`, src/bin/pptcli.rs 88-130, with src/api.rs 122-136; pictures are a parameter. -/
def exportFile (e : Env σ π γ) (s : Sys) (input output : Str) (format : Option Format) : After :=
  let first := c!"Exporting " ++ input ++ c!"..."
  match open? e s.files input with
  | none => stop s.files [] [first] c!"Error loading presentation"
  | some p =>
    match exportFormat format output with
    | .png => e.png s input output
    | f =>
      match e.render f p with
      | none => stop s.files [] [first] c!"Error exporting"
      | some b => writeOut s [] output b [first] [c!"✓ Export completed: " ++ output] c!"Error exporting"

/-- The match on the command, src/bin/pptcli.rs 13-261. -/
def runCommand (e : Env σ π γ) (s : Sys) (c : Command) : After :=
  match c with
  | .create output title slides template => CliRun.create (e.blank s.files) s output title slides template
  | .md2ppt input output title => CliRun.convert (e.md s.files) e.deck .md s input output title
  | .html2ppt input output title maxSlides maxBullets noImages noTables noCode =>
    CliRun.convert (e.html ⟨maxSlides, maxBullets, !noCode, !noTables, !noImages⟩ s.files) e.deck .html s input output title
  | .pdf2ppt input output => CliRun.pdf2ppt (e.fromPdf s.files) e.build s input output
  | .web2ppt url output title maxSlides maxBullets noImages noTables noCode noSource timeout verbose =>
    match (Command.web2ppt url output title maxSlides maxBullets noImages noTables noCode noSource timeout verbose).webOptions with
    | some (cfg, opt) =>
      CliRun.web2ppt (e.fetcher cfg) (e.fetch cfg) (e.page cfg) (fun p t => e.convert cfg { opt with title := t } p) s url output opt.title
    | none => stop s.files [] [] c!"panicked"
  | .merge output inputs => merge e s output inputs
  | .exportFile input output format => exportFile e s input output format
  | .info f => ⟨(e.report s.files (.info f)).1, (e.report s.files (.info f)).2.1, (e.report s.files (.info f)).2.2, [], s.files⟩
  | .validate f j =>
    ⟨(e.report s.files (.validate f j)).1, (e.report s.files (.validate f j)).2.1, (e.report s.files (.validate f j)).2.2, [], s.files⟩

/-- `main`, src/bin/pptcli.rs 10-262; a command line that clap does not accept is answered by it. -/
def runLine (e : Env σ π γ) (s : Sys) (args : List Str) : After :=
  match parseLine args with
  | some c => runCommand e s c
  | none => ⟨(e.clap args).1, (e.clap args).2.1, (e.clap args).2.2, [], s.files⟩

/-- Runs one after another, each with what the system does during it. -/
def session (e : Env σ π γ) : Files → List (Sys × List Str) → Files
  | files, [] => files
  | files, (s, args) :: l => session e (runLine e { s with files } args).files l

end PptRs.CliSession
