import Mathlib.Data.List.Basic

/-!
# The last setting and everything added
-/

namespace PptRs.Spec

/-- The last value that the calls set, or what was there before. -/
def lastSet {ω α : Type} (sets : ω → Option α) (before : α) (calls : List ω) : α :=
  ((calls.filterMap sets).getLast?).getD before

end PptRs.Spec
