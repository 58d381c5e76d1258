import Verif.Model.Str

/-!
# `str::replace` with a non-empty pattern
-/

namespace PptRs

/-- At most `fuel` replacements, from the left. -/
def replaceFuel (pat rep : Str) : Nat → Str → Str
  | 0, s => s
  | fuel + 1, s =>
    match splitOnce? pat s with
    | none => s
    | some (a, b) => a ++ rep ++ replaceFuel pat rep fuel b

/-- `s.replace(pat, rep)` for a non-empty `pat`. -/
def replaceStr (pat rep s : Str) : Str := replaceFuel pat rep (s.length + 1) s

end PptRs
