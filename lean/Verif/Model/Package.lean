import Verif.Model.Str
import Verif.Model.AMap

/-!
# OPC packages
-/

namespace PptRs

/-- File contents. -/
abbrev Bytes := List UInt8

/-- src/opc/package.rs 9-12: a package is a hash map from part path to content. -/
abbrev Package := AMap Str Bytes

namespace Package

/-- src/opc/package.rs 16-20. -/
def new : Package := []

/-- src/opc/package.rs 71-73. -/
def getPart (p : Package) (path : Str) : Option Bytes := AMap.get p path

/-- src/opc/package.rs 76-78. -/
def addPart (p : Package) (path : Str) (content : Bytes) : Package := AMap.insert p path content

/-- src/opc/package.rs 81-83: the package afterwards and the removed content. -/
def removePart (p : Package) (path : Str) : Package × Option Bytes :=
  (AMap.remove p path, AMap.get p path)

/-- src/opc/package.rs 86-88. -/
def hasPart (p : Package) (path : Str) : Bool := AMap.has p path

/-- src/opc/package.rs 91-93. -/
def partPaths (p : Package) : List Str := AMap.keys p

/-- src/opc/package.rs 96-98. -/
def partCount (p : Package) : Nat := p.length

/-- `ZipFile::is_dir`: an archive entry whose name ends with a slash or backslash. -/
def isDirName (name : Str) : Bool :=
  match name.getLast? with
  | some c => c = '/' || c = '\\'
  | none => false

/-- src/opc/package.rs 30-46 (`open_reader`): the archive is the list of its entries in index
order; directory entries are skipped, the others inserted one after another. I/O errors are not
modelled. -/
def openReader (archive : List (Str × Bytes)) : Package :=
  archive.foldl (fun p e => if isDirName e.1 then p else AMap.insert p e.1 e.2) []

/-- src/opc/package.rs 56-68 (`save_writer`): one entry per part in iteration order. I/O errors
are not modelled. -/
def saveWriter (p : Package) : List (Str × Bytes) := p.foldl (fun out e => out ++ [(e.1, e.2)]) []

end Package

end PptRs
