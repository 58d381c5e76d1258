import Verif.Model.Str
import Verif.Model.Sort

/-!
# Slide sections
-/

namespace PptRs

/-- src/generator/slide_content/sections.rs 8-12. -/
structure SlideSection where
  name : Str
  firstSlide : Nat
  slideCount : Nat
deriving DecidableEq, Repr

/-- src/generator/slide_content/sections.rs 34-36. `first_slide + slide_count` is assumed to
fit `usize`. -/
def SlideSection.containsSlide (s : SlideSection) (i : Nat) : Bool :=
  i ≥ s.firstSlide && i < s.firstSlide + s.slideCount

/-- src/generator/slide_content/sections.rs 151-156. -/
def sectionsOverlap (a b : SlideSection) : Bool :=
  if a.slideCount = 0 ∨ b.slideCount = 0 then false
  else a.firstSlide < b.firstSlide + b.slideCount && b.firstSlide < a.firstSlide + a.slideCount

/-- src/generator/slide_content/sections.rs 41-43. -/
structure SectionManager where
  sections : List SlideSection
deriving DecidableEq, Repr

namespace SectionManager

/-- src/generator/slide_content/sections.rs 46-48. -/
def new : SectionManager := ⟨[]⟩

/-- src/generator/slide_content/sections.rs 51-69: the manager afterwards and whether the
section was accepted. -/
def addSection (m : SectionManager) (name : Str) (first count : Nat) : SectionManager × Bool :=
  let s : SlideSection := ⟨name, first, count⟩
  if m.sections.any (fun existing => sectionsOverlap existing s) then (m, false)
  else (⟨sortByKey (·.firstSlide) (m.sections ++ [s])⟩, true)

/-- src/generator/slide_content/sections.rs 72-76. -/
def removeSection (m : SectionManager) (name : Str) : SectionManager × Bool :=
  let kept := m.sections.filter fun s => s.name ≠ name
  (⟨kept⟩, kept.length < m.sections.length)

/-- src/generator/slide_content/sections.rs 79-81. -/
def getSection (m : SectionManager) (name : Str) : Option SlideSection :=
  m.sections.find? fun s => s.name = name

/-- src/generator/slide_content/sections.rs 84-86. -/
def sectionForSlide (m : SectionManager) (i : Nat) : Option SlideSection :=
  m.sections.find? fun s => s.containsSlide i

/-- src/generator/slide_content/sections.rs 104-106. -/
def clear (_ : SectionManager) : SectionManager := ⟨[]⟩

/-- Renames the first section with the old name (`iter_mut().find`). -/
def renameFirst (old new : Str) : List SlideSection → List SlideSection
  | [] => []
  | s :: ss => if s.name = old then { s with name := new } :: ss else s :: renameFirst old new ss

/-- src/generator/slide_content/sections.rs 109-116. -/
def renameSection (m : SectionManager) (old new : Str) : SectionManager × Bool :=
  if m.sections.any (fun s => s.name = old) then (⟨renameFirst old new m.sections⟩, true)
  else (m, false)

/-- The slide ids listed for one section, src/generator/slide_content/sections.rs 135-140. -/
def sectionIds (total : Nat) (s : SlideSection) : List Nat :=
  ((List.range s.slideCount).filter fun i => s.firstSlide + i < total).map
    fun i => 256 + s.firstSlide + i

/-- The slide ids listed by `to_xml`, per section
(src/generator/slide_content/sections.rs 119-147). The surrounding XML text is not modelled. -/
def toXmlIds (m : SectionManager) (total : Nat) : List (List Nat) :=
  m.sections.map (sectionIds total)

end SectionManager

end PptRs
