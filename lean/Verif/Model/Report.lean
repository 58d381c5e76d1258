import Verif.Model.Rels
import Verif.Model.AMap

/-!
# Validation reports and the relationship rule
-/

namespace PptRs

/-- src/core/package_validation/report.rs 5-8. -/
inductive Severity where
  | warning
  | error
deriving DecidableEq, Repr

/-- src/core/package_validation/report.rs 12-22. -/
inductive Category where
  | missingPart | relationship | contentType | presentation | slideMaster | slide | chart | xml
  | theme
deriving DecidableEq, Repr

/-- src/core/package_validation/report.rs 26-32. -/
structure Issue where
  category : Category
  severity : Severity
  message : Str
  path : Option Str
deriving DecidableEq, Repr

/-- src/core/package_validation/report.rs 64-66. -/
structure Report where
  issues : List Issue
deriving DecidableEq, Repr

namespace Report

/-- src/core/package_validation/report.rs 69-73. -/
def isValid (r : Report) : Bool := r.issues.all fun i => i.severity ≠ .error

/-- src/core/package_validation/report.rs 79-84. -/
def errorCount (r : Report) : Nat := (r.issues.filter fun i => i.severity = .error).length

/-- src/core/package_validation/report.rs 86-91. -/
def warningCount (r : Report) : Nat := (r.issues.filter fun i => i.severity = .warning).length

/-- src/core/package_validation/report.rs 93-95. -/
def push (r : Report) (i : Issue) : Report := ⟨r.issues ++ [i]⟩

/-- src/core/package_validation/report.rs 97-99. -/
def extend (r : Report) (l : List Issue) : Report := ⟨r.issues ++ l⟩

/-- src/core/package_validation/report.rs 102-108. -/
def errorMessages (r : Report) : List Str :=
  (r.issues.filter fun i => i.severity = .error).map (·.message)

/-- src/core/package_validation/report.rs 110-117. -/
def issuesInCategory (r : Report) (c : Category) : List Issue :=
  r.issues.filter fun i => i.category = c

end Report

/-- src/core/package_validation/context.rs 22-26, without the part cache: the part names and
the parsed relationship parts in some iteration order. -/
structure PackageContext where
  names : List Str
  relsByPath : AMap Str (List Relationship)

/-- src/core/package_validation/context.rs 29-60 (`from_archive`): the archive is a map from
part name to text. Parts that are not valid UTF-8 (skipped by the code) are not modelled. -/
def PackageContext.fromArchive (archive : AMap Str Str) : PackageContext :=
  let names := archive.keys
  let relsPaths := names.filter (endsWith c!".rels")
  { names := names
    relsByPath := relsPaths.foldl (fun m p =>
      match archive.get p with
      | some content => m.insert p (parseRelationships content (relsSourceDir p))
      | none => m) [] }

/-- src/core/package_validation/context.rs 62-64. -/
def PackageContext.hasPart (ctx : PackageContext) (path : Str) : Bool := ctx.names.contains path

/-- The issue reported for a dangling relationship
(src/core/package_validation/rules.rs 116-123). -/
def danglingIssue (relsPath : Str) (rel : Relationship) : Issue where
  category := .relationship
  severity := .error
  message := relsPath ++ c!" Id=\"" ++ rel.id ++ c!"\" Target=\"" ++ rel.target ++
    c!"\" resolves to missing part \"" ++ rel.resolved ++ c!"\""
  path := some relsPath

/-- src/core/package_validation/rules.rs 107-127. -/
def checkRelationshipTargets (ctx : PackageContext) (report : Report) : Report :=
  ctx.relsByPath.foldl (fun rep (e : Str × List Relationship) =>
    e.2.foldl (fun rep rel =>
      if rel.targetMode = c!"External" then rep
      else if !ctx.hasPart rel.resolved then rep.push (danglingIssue e.1 rel)
      else rep) rep) report

end PptRs
