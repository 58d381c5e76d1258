import Verif.Model.Whole
import Verif.Model.Repair

/-!
# Whole runs: repairing a file
-/

namespace PptRs.Whole

open PptRs

/-- A repair from file to file, src/oxml/repair.rs 171-177, 212-240 and 243-252 with src/opc/package.rs: the file is opened, its
package repaired, and the parts are saved in whatever order the hash map has. -/
def Repaired (uni : Char → Bool) (a b : List (Str × Bytes)) : Prop :=
  ∃ entries, (Repair.repair uni (Package.openReader a)).1.Perm entries ∧ b = Package.saveWriter entries

end PptRs.Whole
