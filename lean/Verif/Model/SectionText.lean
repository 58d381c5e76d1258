import Verif.Model.Sections

/-!
# What sections tell: the last slide and overlaps
-/

namespace PptRs

/-- `last_slide`, src/generator/slide_content/sections.rs 25-31. `first_slide + slide_count` is assumed to fit `usize`. -/
def SlideSection.lastSlide (s : SlideSection) : Nat :=
  if s.slideCount = 0 then s.firstSlide else s.firstSlide + s.slideCount - 1

/-- The message on an overlap, src/generator/slide_content/sections.rs 57-61. -/
def overlapMessage (s existing : SlideSection) : Str :=
  c!"Section '" ++ s.name ++ c!"' (slides " ++ dec s.firstSlide ++ c!"-" ++ dec s.lastSlide ++ c!") overlaps with '" ++
    existing.name ++ c!"' (slides " ++ dec existing.firstSlide ++ c!"-" ++ dec existing.lastSlide ++ c!")"

/-- The error of `add_section`, src/generator/slide_content/sections.rs 51-63; `none` if there is none. -/
def SectionManager.addError (m : SectionManager) (name : Str) (first count : Nat) : Option Str :=
  (m.sections.find? fun existing => sectionsOverlap existing ⟨name, first, count⟩).map (overlapMessage ⟨name, first, count⟩)

end PptRs
