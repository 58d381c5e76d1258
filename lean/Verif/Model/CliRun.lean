import Verif.Model.Handlers

/-!
# Runs of the command line tool

The commands `create`, `md2ppt`, `html2ppt`, `pdf2ppt` and `web2ppt`: src/bin/pptcli.rs and src/cli/commands.rs, with the files before and
after, what is printed, and the exit code. The parsers, the generator and the fetcher are parameters: other parts of the model are about
them. Reasons of errors given by the system are left out of the messages, and so is what `web2ppt` prints with `--verbose`. Arguments have
been read by the argument parser. Paths are texts; a path has a name behind its last slash.
-/

namespace PptRs.CliRun

open PptRs PptRs.Handlers PptRs.External

/-- What the system does: the files, which directories and files can be made, and what is left of a file that could not be written. -/
structure Sys where
  files : Str → Option Bytes
  makes : Str → Bool
  writes : Str → Bool
  broken : Str → Option Bytes
  text : Bytes → Option Str

/-- A run: exit code, lines on the output and on the error output, directories made with `create_dir_all`, and the files after it. -/
structure After where
  exit : Nat
  out : List Str
  err : List Str
  made : List Str
  files : Str → Option Bytes

/-- The files with one of them replaced. -/
def put (files : Str → Option Bytes) (path : Str) (b : Option Bytes) : Str → Option Bytes := fun p => if p = path then b else files p

/-- A run that ends with an error: the branches `Err(e)` of src/bin/pptcli.rs, for example 26-29. -/
def stop (files : Str → Option Bytes) (made out : List Str) (message : Str) : After := ⟨1, out, [c!"✗ " ++ message], made, files⟩

/-- `PathBuf::from(output).parent()`, if it is not empty. -/
def parentOf (path : Str) : Option Str :=
  match rsplitOnceChar? '/' path with
  | none => none
  | some (dir, _) => some (if dir = [] then c!"/" else dir)

/-- The directories that are asked for, src/cli/commands.rs 21-26, 63-68 and 114-119. -/
def wantedDirs (output : Str) : List Str := (parentOf output).toList

/-- `fs::write`, and what is printed: src/cli/commands.rs 43, 77 and 128; src/bin/pptcli.rs 20-25, 56-61 and 200-205. -/
def writeOut (s : Sys) (made : List Str) (output : Str) (b : Bytes) (before lines : List Str) (bad : Str) : After :=
  if s.writes output then ⟨0, before ++ lines, [], made, put s.files output (some b)⟩
  else stop (put s.files output (s.broken output)) made before bad

/-- `CreateCommand::execute` and its branch of `main`, src/cli/commands.rs 14-46, src/bin/pptcli.rs 14-30. `gen` is the generator. -/
def create (gen : Str → Nat → Option Str → Option Bytes) (s : Sys) (output : Str) (title : Option Str) (slides : Nat)
    (template : Option Str) : After :=
  if (wantedDirs output).all s.makes then
    match gen (title.getD c!"Presentation") slides template with
    | none => stop s.files (wantedDirs output) [] (c!"Error: Failed to generate PPTX" ++ if template.isSome then c!" from template" else [])
    | some b =>
      writeOut s (wantedDirs output) output b []
        [c!"✓ Created presentation: " ++ output, c!"  Title: " ++ title.getD c!"Presentation", c!"  Slides: " ++ dec slides]
        c!"Error: Failed to write file"
  else stop s.files [] [] c!"Error: Failed to create directory"

/-- The kinds of documents that are converted. -/
inductive Doc where
  | md | html
deriving DecidableEq

/-- How the messages call a document, src/cli/commands.rs 53, 59, 96 and 110. -/
def Doc.lower : Doc → Str
  | .md => c!"markdown"
  | .html => c!"HTML"

/-- How the default title calls a document, src/cli/commands.rs 70 and 121, src/bin/pptcli.rs 59 and 203. -/
def Doc.title : Doc → Str
  | .md => c!"Presentation from Markdown"
  | .html => c!"Presentation from HTML"

/-- `FromMarkdownCommand::execute`, `FromHtmlCommand::execute` and their branches of `main`, src/cli/commands.rs 50-80 and 84-131,
src/bin/pptcli.rs 31-67 and 161-211. `parse` is the importer with its options, `gen` the generator. -/
def convert {σ : Type} (parse : Str → Except Str (List σ)) (gen : Str → List σ → Option Bytes) (d : Doc) (s : Sys) (input : Str)
    (output : Option Str) (title : Option Str) : After :=
  let out := output.getD (defaultOutput input)
  match (s.files input).bind s.text with
  | none => stop s.files [] [] (c!"Error: Failed to read " ++ d.lower ++ c!" file")
  | some t =>
    match parse t with
    | .error e => stop s.files [] [] (c!"Error: " ++ e)
    | .ok slides =>
      if slides.isEmpty then stop s.files [] [] (c!"Error: No slides found in " ++ d.lower ++ c!" file")
      else if (wantedDirs out).all s.makes then
        match gen (title.getD d.title) slides with
        | none => stop s.files (wantedDirs out) [] c!"Error: Failed to generate PPTX"
        | some b =>
          writeOut s (wantedDirs out) out b []
            [c!"✓ Created presentation: " ++ out, c!"  Input: " ++ input, c!"  Title: " ++ title.getD d.title]
            c!"Error: Failed to write file"
      else stop s.files [] [] c!"Error: Failed to create directory"

/-- `Path::with_extension("pptx")`. -/
def withPptx (path : Str) : Str :=
  match rsplitOnceChar? '/' path with
  | none => fileStem path ++ c!".pptx"
  | some (dir, name) => dir ++ c!"/" ++ fileStem name ++ c!".pptx"

/-- The branch `Pdf2Ppt` of `main`, src/bin/pptcli.rs 212-232. `fromPdf` is `from_pdf`, `build` makes the file (src/api.rs 87-95). -/
def pdf2ppt {π : Type} (fromPdf : Str → Option π) (build : π → Option Bytes) (s : Sys) (input : Str) (output : Option Str) : After :=
  let out := output.getD (withPptx input)
  let first := c!"Converting " ++ input ++ c!" to " ++ out ++ c!"..."
  match fromPdf input with
  | none => stop s.files [] [first] c!"Error converting PDF"
  | some p =>
    match build p with
    | none => stop s.files [] [first] c!"Error saving presentation"
    | some b => writeOut s [] out b [first] [c!"✓ Conversion completed: " ++ out] c!"Error saving presentation"

/-- `execute_web2ppt` without `--verbose`, src/bin/pptcli.rs 265-390. `fetcher` says whether there is one, `fetch` is the page, `parse` its
content, `conv` the converter. -/
def web2ppt {γ : Type} (fetcher : Bool) (fetch : Str → Option Str) (parse : Str → Str → Option γ) (conv : γ → Option Str → Option Bytes)
    (s : Sys) (url output : Str) (title : Option Str) : After :=
  if fetcher then
    match fetch url with
    | none => stop s.files [] [] c!"Failed to fetch"
    | some page =>
      match parse page url with
      | none => stop s.files [] [] c!"Failed to parse"
      | some c =>
        match conv c title with
        | none => stop s.files [] [] c!"Conversion failed"
        | some b => writeOut s [] output b [] [c!"✓ Created: " ++ output ++ c!" (" ++ dec b.length ++ c!" bytes)"] c!"Failed to save file"
  else stop s.files [] [] c!"Failed to create fetcher"

/-- `handle_markdown_to_pptx`, src/mcp/mod.rs 251-277, with `Presentation::save`, src/api.rs 87-113, and `create_pptx_with_content`,
src/generator/builder.rs 140-145, as the same generator: the answer of the tool and the files after it. -/
def mdTool {σ : Type} (parse : Str → Except Str (List σ)) (gen : Str → List σ → Option Bytes) (s : Sys) (markdown output : Str)
    (title : Option Str) : Reply × (Str → Option Bytes) :=
  match parse markdown with
  | .error e => (.error (c!"Failed to parse markdown: " ++ e), s.files)
  | .ok slides =>
    match (if slides.isEmpty then none else gen (title.getD Doc.md.title) slides) with
    | none => (.error c!"Failed to save", s.files)
    | some b =>
      if s.writes output then
        (.ok (c!"Converted markdown to presentation with " ++ dec slides.length ++ c!" slide(s) at: " ++ output), put s.files output (some b))
      else (.error c!"Failed to save", put s.files output (s.broken output))

end PptRs.CliRun
