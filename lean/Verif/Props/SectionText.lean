import Verif.Model.SectionText
import Verif.Props.Sections

/-!
# What sections tell: the last slide and overlaps (C181)
-/

namespace PptRs.Props

open PptRs

/-- **C181.** The slides of a section that is not empty are those from its first to its last slide. -/
theorem C181_range (s : SlideSection) (h : s.slideCount ≠ 0) (i : Nat) :
    s.containsSlide i = true ↔ s.firstSlide ≤ i ∧ i ≤ s.lastSlide := by
  unfold SlideSection.containsSlide SlideSection.lastSlide
  rw [if_neg h]
  simp only [ge_iff_le, Bool.and_eq_true, decide_eq_true_eq]
  omega

/-- **C181.** In any history the last slides are in the order of the sections: a section that is not empty ends before the
next such begins. -/
theorem C181_order (ops : List SecOp) (s t : SlideSection) (hs : s ∈ (runSecs ops).sections) (ht : t ∈ (runSecs ops).sections)
    (h0 : s.slideCount ≠ 0) (h1 : t.slideCount ≠ 0) (hlt : s.firstSlide < t.firstSlide) : s.lastSlide < t.firstSlide := by
  by_contra hn
  have hi : InSection s t.firstSlide := by
    have := (C181_range s h0 t.firstSlide).mpr ⟨by omega, by omega⟩
    unfold SlideSection.containsSlide at this
    simp only [ge_iff_le, Bool.and_eq_true, decide_eq_true_eq] at this
    exact this
  have hj : InSection t t.firstSlide := ⟨Nat.le_refl _, by omega⟩
  have e := (C14_lookup ops t.firstSlide s).mpr ⟨hs, hi⟩
  have e' := (C14_lookup ops t.firstSlide t).mpr ⟨ht, hj⟩
  rw [e] at e'
  cases e'
  omega

/-- **C181.** Adding a section fails with a message if and only if it fails, and the message names the section, an existing one
that shares a slide with it, and the first and last slides of both. -/
theorem C181_error (m : SectionManager) (name : Str) (first count : Nat) :
    (m.addError name first count = none ↔ (m.addSection name first count).2 = true) ∧
    ∀ x, m.addError name first count = some x → ∃ s ∈ m.sections, (∃ i, InSection s i ∧ first ≤ i ∧ i < first + count) ∧
      x = c!"Section '" ++ name ++ c!"' (slides " ++ dec first ++ c!"-" ++ dec (first + count - 1) ++ c!") overlaps with '" ++
        s.name ++ c!"' (slides " ++ dec s.firstSlide ++ c!"-" ++ dec (s.firstSlide + s.slideCount - 1) ++ c!")" := by
  unfold SectionManager.addError SectionManager.addSection
  constructor
  · rw [Option.map_eq_none_iff, List.find?_eq_none]
    simp only
    split
    · rename_i h
      obtain ⟨s, hs, ho⟩ := List.any_eq_true.mp h
      simp only [Bool.false_eq_true, iff_false]
      exact fun hn => hn s hs ho
    · rename_i h
      simp only [iff_true]
      exact fun s hs ho => h (List.any_eq_true.mpr ⟨s, hs, ho⟩)
  · intro x hx
    obtain ⟨s, hs, rfl⟩ := Option.map_eq_some_iff.mp hx
    have ho := List.find?_some hs
    obtain ⟨i, h1, h2⟩ := (sectionsOverlap_iff _ _).mp ho
    refine ⟨s, List.mem_of_find?_eq_some hs, ⟨i, h1, h2⟩, ?_⟩
    have a : s.slideCount ≠ 0 := by have := h1.1; have := h1.2; omega
    have b : count ≠ 0 := by have := h2.1; have := h2.2; simp only at *; omega
    simp only [overlapMessage, SlideSection.lastSlide, if_neg a, if_neg b]

/-- **C181 does not hold in full.** The last slide of a section without slides is said to be its first, though that slide does
not belong to it and may belong to another section. -/
theorem C181_empty_violated (s : SlideSection) (h : s.slideCount = 0) :
    s.lastSlide = s.firstSlide ∧ s.containsSlide s.lastSlide = false ∧
    ((runSecs [.add c!"a" 0 5, .add c!"b" 2 0]).getSection c!"b").map (·.lastSlide) = some 2 ∧
    ((runSecs [.add c!"a" 0 5, .add c!"b" 2 0]).sectionForSlide 2).map (·.name) = some c!"a" := by
  refine ⟨by simp [SlideSection.lastSlide, h], by simp [SlideSection.containsSlide, SlideSection.lastSlide, h], by decide, by decide⟩

/-- **C181 does not hold in full.** Names of sections need not differ: two sections with one name are both accepted, only the
first is found and renamed, and removing the name removes both. -/
theorem C181_names_violated :
    let m := runSecs [.add c!"a" 0 2, .add c!"a" 2 3]
    m.sections.length = 2 ∧ (m.getSection c!"a").map (·.firstSlide) = some 0 ∧
    (m.renameSection c!"a" c!"b").1.sections.map (·.name) = [c!"b", c!"a"] ∧ (m.removeSection c!"a").1.sections = [] := by decide

example : (runSecs [.add c!"a" 0 5]).addError c!"x" 4 2 = some c!"Section 'x' (slides 4-5) overlaps with 'a' (slides 0-4)" := by decide
example : (⟨c!"a", 3, 2⟩ : SlideSection).lastSlide = 4 := rfl

end PptRs.Props
