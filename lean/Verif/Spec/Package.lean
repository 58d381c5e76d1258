import Verif.Model.Package

/-!
# Specification of package histories
-/

namespace PptRs.Spec

open PptRs

/-- A call on a package. -/
inductive PkgOp where
  | add (path : Str) (content : Bytes)
  | remove (path : Str)
deriving DecidableEq

/-- The path a call is about. -/
def PkgOp.path : PkgOp → Str
  | .add p _ => p
  | .remove p => p

/-- The content of `path` after the calls, newest first: decided by the newest call about that
path alone. -/
def lastWrite (path : Str) : List PkgOp → Option Bytes
  | [] => none
  | .add p b :: older => if p = path then some b else lastWrite path older
  | .remove p :: older => if p = path then none else lastWrite path older

/-- Runs the calls, oldest first. -/
def runPkg : List PkgOp → Package → Package
  | [], p => p
  | .add path b :: ops, p => runPkg ops (p.addPart path b)
  | .remove path :: ops, p => runPkg ops (p.removePart path).1

/-- The last entry of an archive with a given name. -/
def lastEntry (name : Str) (archive : List (Str × Bytes)) : Option Bytes :=
  ((archive.filter fun e => e.1 = name).getLast?).map (·.2)

end PptRs.Spec
