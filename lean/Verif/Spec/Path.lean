import Verif.Model.Str

/-!
# Specification: walking folders
-/

namespace PptRs.Spec

open PptRs

/-- A usable folder or file name. -/
def CleanSeg (s : Str) : Prop := s ≠ [] ∧ s ≠ c!"." ∧ s ≠ c!".." ∧ '/' ∉ s

/-- Where one ends up starting in folder `cwd` (innermost folder first) and following the
segments: `..` goes up (staying at the root), `.` and empty segments stay, a name goes down. -/
def walk : List Str → List Str → List Str
  | cwd, [] => cwd
  | [], ['.', '.'] :: r => walk [] r
  | _ :: up, ['.', '.'] :: r => walk up r
  | cwd, ['.'] :: r => walk cwd r
  | cwd, [] :: r => walk cwd r
  | cwd, name :: r => walk (name :: cwd) r

end PptRs.Spec
