import Verif.Model.Whole
import Verif.Model.Compress

/-!
# Whole runs: compressing a file
-/

namespace PptRs.Whole

open PptRs

/-- `compress_pptx` from file to file, src/opc/compress.rs 202-238 with src/opc/package.rs: the file is opened, its package
compressed, and the parts are saved in whatever order the hash map has. -/
def Compressed (o : CompressionOptions) (a b : List (Str × Bytes)) : Prop :=
  ∃ entries, (compressPackage o (Package.openReader a)).1.Perm entries ∧ b = Package.saveWriter entries

end PptRs.Whole
