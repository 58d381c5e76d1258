import Verif.Model.TextConv
import Verif.Model.Validate
import Verif.Model.Template

/-!
# The JSON output of the validation command

src/cli/commands.rs 239-268.
-/

namespace PptRs.ReportJson

open PptRs PptRs.Validate

/-- `PackageValidationIssue`, src/core/package_validation/report.rs 26-32. -/
structure FullIssue where
  category : Category
  error : Bool
  path : Option Str
  message : Str

/-- `{:?}` of a category, src/core/package_validation/report.rs 11-22. -/
def categoryName : Category → Str
  | .missingPart => c!"MissingPart"
  | .relationship => c!"Relationship"
  | .contentType => c!"ContentType"
  | .presentation => c!"Presentation"
  | .slideMaster => c!"SlideMaster"
  | .slide => c!"Slide"
  | .chart => c!"Chart"
  | .xml => c!"Xml"
  | .theme => c!"Theme"

/-- `error_count`, src/core/package_validation/report.rs 79-84. -/
def errorCount (l : List FullIssue) : Nat := (l.filter (·.error)).length

/-- `warning_count`, src/core/package_validation/report.rs 86-91. -/
def warningCount (l : List FullIssue) : Nat := (l.filter fun i => !i.error).length

/-- `is_valid`, src/core/package_validation/report.rs 69-73. -/
def isValid (l : List FullIssue) : Bool := l.all fun i => !i.error

/-- The lines of one issue, src/cli/commands.rs 249-264. -/
def issueJson (i : FullIssue) (last : Bool) : Str :=
  c!"    {\n      \"severity\": \"" ++ (if i.error then c!"error" else c!"warning") ++ c!"\",\n"
  ++ c!"      \"category\": \"" ++ categoryName i.category ++ c!"\",\n"
  ++ c!"      \"path\": " ++ (i.path.map jsonString).getD c!"null" ++ c!",\n"
  ++ c!"      \"message\": " ++ jsonString i.message ++ c!"\n    }" ++ (if last then [] else c!",") ++ c!"\n"

/-- The loop over the issues, src/cli/commands.rs 248-265. -/
def issuesJson : List FullIssue → Str
  | [] => []
  | [i] => issueJson i true
  | i :: l => issueJson i false ++ issuesJson l

/-- `print_json`, src/cli/commands.rs 239-268. -/
def reportJson (file : Str) (l : List FullIssue) : Str :=
  c!"{\n  \"file\": " ++ jsonString file ++ c!",\n"
  ++ c!"  \"valid\": " ++ (if isValid l then c!"true" else c!"false") ++ c!",\n"
  ++ c!"  \"error_count\": " ++ dec (errorCount l) ++ c!",\n"
  ++ c!"  \"warning_count\": " ++ dec (warningCount l) ++ c!",\n"
  ++ c!"  \"issues\": [\n" ++ issuesJson l ++ c!"  ]\n}\n"

end PptRs.ReportJson
