import Verif.Model.Handlers
import Verif.Model.HtmlImport
import Verif.Model.WebOptions

/-!
# The arguments of the command line tool

The declarations of src/cli/parser.rs and what the branches of `main` make of them, src/bin/pptcli.rs. The library clap, version 4.5, reads
the arguments by these declarations; what it does is described here as far as these declarations need it, and is trusted. Texts of help,
versions and errors are left out: `none` is a run that prints one of them and does nothing else.
-/

namespace PptRs.CliArgs

open PptRs

/-- What an option takes: nothing (`bool`), a text (`String`, `Option<String>`), a number (`usize`, `u64`) or a format (`ExportFormat`). -/
inductive Kind where
  | flag | text | number | format
deriving DecidableEq

/-- An option, for example src/cli/parser.rs 54-56. -/
structure Opt where
  long : Str
  kind : Kind
  short : Option Char := none
deriving DecidableEq

/-- The commands, src/cli/parser.rs 40-327. -/
inductive Sub where
  | create | md2ppt | info | validate | exportFile | merge | pdf2ppt | html2ppt | web2ppt
deriving DecidableEq

/-- The names of the commands with their aliases, src/cli/parser.rs 49, 69-71, 129, 146, 163, 181, 193, 211-213 and 272. -/
def subNamed (s : Str) : Option Sub :=
  if s = c!"create" then some .create
  else if s = c!"md2ppt" ∨ s = c!"from-md" ∨ s = c!"from-markdown" then some .md2ppt
  else if s = c!"info" then some .info
  else if s = c!"validate" then some .validate
  else if s = c!"export" then some .exportFile
  else if s = c!"merge" then some .merge
  else if s = c!"pdf2ppt" then some .pdf2ppt
  else if s = c!"html2ppt" ∨ s = c!"from-html" ∨ s = c!"from-html-file" then some .html2ppt
  else if s = c!"web2ppt" then some .web2ppt
  else none

/-- The options of a command, src/cli/parser.rs 54-64, 117-119, 151-153, 172-174, 182-184, 244-266 and 287-325. -/
def Sub.options : Sub → List Opt
  | .create => [⟨c!"title", .text, none⟩, ⟨c!"slides", .number, none⟩, ⟨c!"template", .text, none⟩]
  | .md2ppt => [⟨c!"title", .text, none⟩]
  | .info => []
  | .validate => [⟨c!"json", .flag, none⟩]
  | .exportFile => [⟨c!"format", .format, none⟩]
  | .merge => [⟨c!"output", .text, some 'o'⟩]
  | .pdf2ppt => []
  | .html2ppt =>
    [⟨c!"title", .text, none⟩, ⟨c!"max-slides", .number, none⟩, ⟨c!"max-bullets", .number, none⟩, ⟨c!"no-images", .flag, none⟩,
     ⟨c!"no-tables", .flag, none⟩, ⟨c!"no-code", .flag, none⟩]
  | .web2ppt =>
    [⟨c!"output", .text, some 'o'⟩, ⟨c!"title", .text, none⟩, ⟨c!"max-slides", .number, none⟩, ⟨c!"max-bullets", .number, none⟩,
     ⟨c!"no-images", .flag, none⟩, ⟨c!"no-tables", .flag, none⟩, ⟨c!"no-code", .flag, none⟩, ⟨c!"no-source-url", .flag, none⟩,
     ⟨c!"timeout", .number, none⟩, ⟨c!"verbose", .flag, some 'v'⟩]

/-- `s.parse::<usize>()`. -/
def parseUsize? (s : Str) : Option Nat :=
  let body := dropPlus s
  if body ≠ [] ∧ body.all isDig = true ∧ Nat.ofDigitChars 10 body 0 < 18446744073709551616 then some (Nat.ofDigitChars 10 body 0) else none

/-- The values of `ExportFormat`, src/cli/parser.rs 329-334. -/
def formatNamed (s : Str) : Option Handlers.Format :=
  if s = c!"pdf" then some .pdf else if s = c!"html" then some .html else if s = c!"png" then some .png else none

/-- May this be the value of an option of this kind? -/
def Kind.accepts : Kind → Str → Bool
  | .flag, _ => false
  | .text, _ => true
  | .number, s => (parseUsize? s).isSome
  | .format, s => (formatNamed s).isSome

/-- What has been read: arguments without a name, and options with their values. -/
structure Raw where
  pos : List Str := []
  opts : List (Str × Option Str) := []
deriving DecidableEq

/-- The state of clap: what has been read, the option that waits for its value, and whether `--` has been read. -/
structure State where
  raw : Raw := {}
  waiting : Option Opt := none
  escaped : Bool := false
deriving DecidableEq

/-- Does an argument look like an option? A single hyphen does not. -/
def dashed : Str → Bool
  | '-' :: _ :: _ => true
  | _ => false

/-- An option is read with its value. clap refuses an option that is given twice, and bad values. -/
def State.take (st : State) (o : Opt) (v : Option Str) : Option State :=
  if st.raw.opts.any (fun p => p.1 = o.long) then none
  else if v.all o.kind.accepts then some { st with raw := { st.raw with opts := st.raw.opts ++ [(o.long, v)] }, waiting := none }
  else none

/-- A name and the value after an equals sign. -/
def splitEq : Str → Str × Option Str
  | [] => ([], none)
  | c :: s => if c = '=' then ([], some s) else (c :: (splitEq s).1, (splitEq s).2)

/-- An argument with two hyphens. -/
def readLong (opts : List Opt) (st : State) (s : Str) : Option State :=
  (opts.find? fun o => o.long = (splitEq s).1).bind fun o =>
    match o.kind, (splitEq s).2 with
    | .flag, none => st.take o none
    | .flag, some _ => none
    | _, some v => st.take o (some v)
    | _, none => some { st with waiting := some o }

/-- An argument with one hyphen: flags, and an option with its value behind it or in the next argument. -/
def readShort (opts : List Opt) (st : State) : Str → Option State
  | [] => some st
  | c :: s =>
    (opts.find? fun o => o.short = some c).bind fun o =>
      match o.kind with
      | .flag => (st.take o none).bind fun st => readShort opts st s
      | _ =>
        match s with
        | [] => some { st with waiting := some o }
        | '=' :: v => st.take o (some v)
        | c :: v => st.take o (some (c :: v))

/-- An argument. -/
def step (opts : List Opt) (st : State) (a : Str) : Option State :=
  if st.escaped then some { st with raw := { st.raw with pos := st.raw.pos ++ [a] } }
  else
    match st.waiting with
    | some o => if dashed a then none else st.take o (some a)
    | none =>
      match a with
      | '-' :: '-' :: s => if s = [] then some { st with escaped := true } else readLong opts st s
      | '-' :: c :: s => readShort opts st (c :: s)
      | _ => some { st with raw := { st.raw with pos := st.raw.pos ++ [a] } }

/-- All arguments; an option that still waits is an error. -/
def readArgs (opts : List Opt) (args : List Str) : Option Raw :=
  (args.foldlM (step opts) {}).bind fun st => if st.waiting.isNone then some st.raw else none

/-- The value of an option. -/
def Raw.value (r : Raw) (name : Str) : Option Str := (r.opts.find? fun p => p.1 = name).bind (·.2)

/-- Is an option given? -/
def Raw.has (r : Raw) (name : Str) : Bool := r.opts.any fun p => p.1 = name

/-- The value of a number. -/
def Raw.number (r : Raw) (name : Str) (d : Nat) : Nat := ((r.value name).bind parseUsize?).getD d

/-- `Commands`, src/cli/parser.rs 40-327. -/
inductive Command where
  | create (output : Str) (title : Option Str) (slides : Nat) (template : Option Str)
  | md2ppt (input : Str) (output title : Option Str)
  | info (file : Str)
  | validate (file : Str) (json : Bool)
  | exportFile (input output : Str) (format : Option Handlers.Format)
  | merge (output : Str) (inputs : List Str)
  | pdf2ppt (input : Str) (output : Option Str)
  | html2ppt (input : Str) (output title : Option Str) (maxSlides maxBullets : Nat) (noImages noTables noCode : Bool)
  | web2ppt (url output : Str) (title : Option Str) (maxSlides maxBullets : Nat) (noImages noTables noCode noSource : Bool) (timeout : Nat)
    (verbose : Bool)
deriving DecidableEq

/-- An argument without a name that may be left out. -/
def optional : List Str → Option (Option Str)
  | [] => some none
  | [a] => some (some a)
  | _ => none

/-- The fields of a command, with defaults: src/cli/parser.rs 49-65, 105-120, 129-133, 146-154, 163-175, 181-189, 199-207, 232-267 and
282-326. `none` if there are too few or too many arguments, or the output of `merge` is missing. -/
def build : Sub → Raw → Option Command
  | .create, r =>
    match r.pos with
    | [output] => some (.create output (r.value c!"title") (r.number c!"slides" 1) (r.value c!"template"))
    | _ => none
  | .md2ppt, r =>
    match r.pos with
    | input :: l => (optional l).map fun output => .md2ppt input output (r.value c!"title")
    | [] => none
  | .info, r =>
    match r.pos with
    | [file] => some (.info file)
    | _ => none
  | .validate, r =>
    match r.pos with
    | [file] => some (.validate file (r.has c!"json"))
    | _ => none
  | .exportFile, r =>
    match r.pos with
    | [input, output] => some (.exportFile input output ((r.value c!"format").bind formatNamed))
    | _ => none
  | .merge, r =>
    match r.pos with
    | [] => none
    | a :: l => (r.value c!"output").map fun output => .merge output (a :: l)
  | .pdf2ppt, r =>
    match r.pos with
    | input :: l => (optional l).map fun output => .pdf2ppt input output
    | [] => none
  | .html2ppt, r =>
    match r.pos with
    | input :: l =>
      (optional l).map fun output =>
        .html2ppt input output (r.value c!"title") (r.number c!"max-slides" 50) (r.number c!"max-bullets" 10) (r.has c!"no-images")
          (r.has c!"no-tables") (r.has c!"no-code")
    | [] => none
  | .web2ppt, r =>
    match r.pos with
    | [url] =>
      some (.web2ppt url ((r.value c!"output").getD c!"output.pptx") (r.value c!"title") (r.number c!"max-slides" 20)
        (r.number c!"max-bullets" 7) (r.has c!"no-images") (r.has c!"no-tables") (r.has c!"no-code") (r.has c!"no-source-url")
        (r.number c!"timeout" 30) (r.has c!"verbose"))
    | _ => none

/-- `Cli::parse()`, src/bin/pptcli.rs 11: the arguments behind the name of the program. -/
def parseLine : List Str → Option Command
  | [] => none
  | name :: args => (subNamed name).bind fun s => (readArgs s.options args).bind (build s)

/-- The options that `html2ppt` gives the importer, src/cli/commands.rs 98-104 and src/bin/pptcli.rs 190-199. -/
def Command.htmlOptions : Command → Option HtmlOptions
  | .html2ppt _ _ _ maxSlides maxBullets noImages noTables noCode => some ⟨maxSlides, maxBullets, !noCode, !noTables, !noImages⟩
  | _ => none

/-- The configuration and options of `web2ppt`, src/bin/pptcli.rs 293-307. -/
def Command.webOptions : Command → Option (WebOptions.Config × WebOptions.Options)
  | .web2ppt _ _ title maxSlides maxBullets noImages noTables noCode noSource timeout _ =>
    let calls : List WebOptions.Op :=
      [.maxSlides maxSlides, .maxBullets maxBullets, .images !noImages, .tables !noTables, .code !noCode, .timeout timeout, .source !noSource]
    some ((calls ++ (title.map WebOptions.Op.title).toList).foldl WebOptions.apply ({}, {}))
  | _ => none

end PptRs.CliArgs
