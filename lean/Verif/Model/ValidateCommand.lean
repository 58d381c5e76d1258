import Verif.Model.ReportJson
import Verif.Model.Handlers

/-!
# The validation command

src/cli/commands.rs 179-237 and src/bin/pptcli.rs 75-87: what is printed, and the exit code.
-/

namespace PptRs.ValidateCommand

open PptRs PptRs.Validate PptRs.ReportJson

/-- What a run of the program leaves: the output, the error output and the exit code. -/
structure Run where
  out : Str
  err : Str
  code : Nat
deriving DecidableEq

/-- The two lines of an issue, src/cli/commands.rs 219-230. -/
def issueLines (i : FullIssue) : Str :=
  c!"[" ++ (if i.error then c!"ERROR" else c!"WARNING") ++ c!"] " ++ categoryName i.category ++ c!"  " ++ i.path.getD c!"-" ++ c!"\n  "
    ++ i.message ++ c!"\n"

/-- The lines before the issues, src/cli/commands.rs 205-211. -/
def humanHead (file : Str) (l : List FullIssue) : Str :=
  c!"Validating PPTX file: " ++ file ++ c!"\n" ++ List.replicate 60 '=' ++ c!"\nSummary: " ++ dec (errorCount l) ++ c!" error(s), "
    ++ dec (warningCount l) ++ c!" warning(s)\n"

/-- `print_human`, src/cli/commands.rs 202-237. -/
def humanReport (file : Str) (l : List FullIssue) : Str :=
  if l = [] then humanHead file l ++ c!"\n✓ Validation PASSED — no issues found\n"
  else humanHead file l ++ c!"\n" ++ l.flatMap issueLines ++
    (if isValid l then c!"\n✓ Validation PASSED (warnings only)\n" else c!"\n✗ Validation FAILED\n")

/-- `ValidateCommand::execute`, src/cli/commands.rs 181-200, for a file whose report is given, or that cannot be read for a reason: what is
printed, and the error. -/
def execute (file : Str) (json : Bool) : Except Str (List FullIssue) → Str × Option Str
  | .error e => ([], some (c!"Failed to read file: " ++ e))
  | .ok l =>
    (if json then reportJson file l else humanReport file l,
      if isValid l then none
      else some (c!"Validation failed with " ++ dec (errorCount l) ++ c!" error(s), " ++ dec (warningCount l) ++ c!" warning(s)"))

/-- The branch of `main`, src/bin/pptcli.rs 75-87. -/
def run (file : Str) (json : Bool) (read : Except Str (List FullIssue)) : Run :=
  match execute file json read with
  | (out, none) => ⟨out ++ (if json then [] else c!"\n✓ Validation completed successfully\n"), [], 0⟩
  | (out, some e) => ⟨out, if json then [] else c!"✗ Error: " ++ e ++ c!"\n", 1⟩

/-- `handle_validate_pptx`, src/mcp/mod.rs 394-410. -/
def tool : Except Str (List FullIssue) → Handlers.Reply
  | .error e => .error (c!"Failed to read file: " ++ e)
  | .ok l => Handlers.validateTool ((l.filter (·.error)).map (·.message)) ((l.filter fun i => !i.error).map (·.message))

end PptRs.ValidateCommand
