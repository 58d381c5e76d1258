import Verif.Model.Whole

/-!
# Presentations made with a template file

Rust: src/generator/template.rs and `create_pptx_with_template`, src/generator/builder.rs 147-173.
-/

namespace PptRs.Whole

open PptRs

/-- The parts a template gives, src/generator/template.rs 27-30. -/
def isTemplatePart (path : Str) : Bool :=
  startsWith c!"ppt/theme/" path || startsWith c!"ppt/slideMasters/" path || startsWith c!"ppt/slideLayouts/" path ||
    path == c!"ppt/tableStyles.xml"

/-- `PptxTemplate`, src/generator/template.rs 11-14. -/
structure PptxTemplate where
  parts : AMap Str Bytes
  layoutCount : Nat

/-- src/generator/template.rs 27-33. -/
def templateStep (p : Package) (parts : AMap Str Bytes) (path : Str) : AMap Str Bytes :=
  if isTemplatePart path then
    match p.getPart path with
    | some data => AMap.insert parts path data
    | none => parts
  else parts

/-- src/generator/template.rs 25-34. -/
def templateParts (p : Package) : AMap Str Bytes := p.partPaths.foldl (templateStep p) []

/-- src/generator/template.rs 44-48. -/
def isLayoutPath (path : Str) : Bool :=
  startsWith c!"ppt/slideLayouts/slideLayout" path && endsWith c!".xml" path && !containsStr c!"_rels" path

/-- `PptxTemplate::from_package`, src/generator/template.rs 24-53; `none` is the error. -/
def PptxTemplate.fromPackage (p : Package) : Option PptxTemplate :=
  let parts := templateParts p
  if parts.keys.any fun x => startsWith c!"ppt/slideMasters/" x then
    some { parts := parts, layoutCount := Nat.max (parts.keys.filter isLayoutPath).length 1 }
  else none

/-- src/generator/template.rs 63-66. -/
def PptxTemplate.hasLayout (t : PptxTemplate) (n : Nat) : Bool :=
  AMap.has t.parts (c!"ppt/slideLayouts/slideLayout" ++ dec n ++ c!".xml")

/-- src/generator/template.rs 69-75. -/
def PptxTemplate.resolveLayoutNumber (t : PptxTemplate) (requested : Nat) : Nat :=
  if t.hasLayout requested then requested else 1

/-- The settings of a deck with a template whose parts are visited in the given order, src/generator/builder.rs 154-155, 635. -/
def withTemplate (st : BuildSettings) (entries : List (Str × Bytes)) : BuildSettings :=
  { st with template := some (entries.map (·.1)) }

/-- The bytes of the parts of a deck with a template, src/generator/builder.rs 635-638. -/
def templateBytes (entries : List (Str × Bytes)) (other : PartName → Bytes) : PartName → Bytes
  | .templatePart path => (AMap.get entries path).getD []
  | q => other q

/-- The archives that `create_pptx_with_template` writes (src/generator/builder.rs 147-157, 713-807) with a template file that is
the archive `base`; the hash map of the parts of the template is visited in any order. -/
def FromTemplate (base : List (Str × Bytes)) (secs : Nat) (title : Str) (l : List PageIn) (st : BuildSettings) (desc : Str → Str)
    (other : PartName → Bytes) (file : List (Str × Bytes)) : Prop :=
  ∃ t entries, PptxTemplate.fromPackage (Package.openReader base) = some t ∧ t.parts.Perm entries ∧
    file = written secs title l (withTemplate st entries) desc (templateBytes entries other)

end PptRs.Whole
