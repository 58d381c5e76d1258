import Verif.Model.Sections
import Verif.Lemmas.Sort
import Mathlib.Data.List.Nodup
import Mathlib.Data.List.Pairwise

/-!
# C14, C62: sections
-/

namespace PptRs.Props

open PptRs

/-- A call on the section manager. -/
inductive SecOp where
  | add (name : Str) (first count : Nat)
  | remove (name : Str)
  | rename (old new : Str)
  | clear

/-- Runs one call. -/
def SecOp.run (m : SectionManager) : SecOp → SectionManager
  | .add n f c => (m.addSection n f c).1
  | .remove n => (m.removeSection n).1
  | .rename o n => (m.renameSection o n).1
  | .clear => m.clear

/-- Runs a history on an empty manager. -/
def runSecs (ops : List SecOp) : SectionManager := ops.foldl SecOp.run .new

/-- The slides of a section. -/
def InSection (s : SlideSection) (i : Nat) : Prop := s.firstSlide ≤ i ∧ i < s.firstSlide + s.slideCount

/-- Ordered by first slide, no slide in two sections. -/
structure SecInv (l : List SlideSection) : Prop where
  sorted : l.Pairwise fun a b => a.firstSlide ≤ b.firstSlide
  disjoint : l.Pairwise fun a b => ∀ i, ¬ (InSection a i ∧ InSection b i)

theorem sectionsOverlap_iff (a b : SlideSection) :
    sectionsOverlap a b = true ↔ ∃ i, InSection a i ∧ InSection b i := by
  unfold sectionsOverlap InSection
  split
  · simp only [Bool.false_eq_true, false_iff, not_exists]
    intro i hi
    omega
  · simp only [Bool.and_eq_true, decide_eq_true_eq]
    constructor
    · intro h
      exact ⟨max a.firstSlide b.firstSlide, by omega, by omega⟩
    · rintro ⟨i, h1, h2⟩
      omega

theorem renameFirst_pairwise (R : SlideSection → SlideSection → Prop)
    (hR : ∀ a b a' b' : SlideSection, a.firstSlide = a'.firstSlide → a.slideCount = a'.slideCount →
      b.firstSlide = b'.firstSlide → b.slideCount = b'.slideCount → R a b → R a' b')
    (o n : Str) (l : List SlideSection) (h : l.Pairwise R) :
    (SectionManager.renameFirst o n l).Pairwise R := by
  have key : ∀ l, ∀ b ∈ SectionManager.renameFirst o n l, ∃ b' ∈ l,
      b'.firstSlide = b.firstSlide ∧ b'.slideCount = b.slideCount := by
    intro l
    induction l with
    | nil => intro b hb; simp [SectionManager.renameFirst] at hb
    | cons s l ih =>
      intro b hb
      simp only [SectionManager.renameFirst] at hb
      split at hb
      · rcases List.mem_cons.mp hb with rfl | hb
        · exact ⟨s, by simp, rfl, rfl⟩
        · exact ⟨b, by simp [hb], rfl, rfl⟩
      · rcases List.mem_cons.mp hb with rfl | hb
        · exact ⟨b, by simp, rfl, rfl⟩
        · obtain ⟨b', hb', h1⟩ := ih b hb
          exact ⟨b', by simp [hb'], h1⟩
  induction l with
  | nil => exact h
  | cons s l ih =>
    rw [List.pairwise_cons] at h
    simp only [SectionManager.renameFirst]
    split
    · rw [List.pairwise_cons]
      exact ⟨fun b hb => hR s b _ b rfl rfl rfl rfl (h.1 b hb), h.2⟩
    · rw [List.pairwise_cons]
      refine ⟨fun b hb => ?_, ih h.2⟩
      obtain ⟨b', hb', h1, h2⟩ := key l b hb
      exact hR s b' s b rfl rfl h1 h2 (h.1 b' hb')

theorem secInv_step (m : SectionManager) (h : SecInv m.sections) (o : SecOp) :
    SecInv (o.run m).sections := by
  cases o with
  | add n f c =>
    simp only [SecOp.run, SectionManager.addSection]
    split
    · exact h
    · rename_i hno
      refine ⟨sortByKey_sorted _ _, ?_⟩
      have hp := sortByKey_perm (·.firstSlide) (m.sections ++ [⟨n, f, c⟩])
      refine (hp.pairwise_iff ?_).mpr ?_
      · intro a b hab i hi
        exact hab i hi.symm
      · rw [List.pairwise_append]
        refine ⟨h.disjoint, by simp, ?_⟩
        intro a ha b hb i hi
        rw [List.mem_singleton] at hb
        subst hb
        apply hno
        rw [List.any_eq_true]
        exact ⟨a, ha, (sectionsOverlap_iff _ _).mpr ⟨i, hi⟩⟩
  | remove n =>
    simp only [SecOp.run, SectionManager.removeSection]
    exact ⟨h.sorted.filter _, h.disjoint.filter _⟩
  | rename o n =>
    simp only [SecOp.run, SectionManager.renameSection]
    split
    · refine ⟨renameFirst_pairwise _ ?_ o n _ h.sorted, renameFirst_pairwise _ ?_ o n _ h.disjoint⟩
      · intro a b a' b' h1 _ h3 _ hab; omega
      · intro a b a' b' h1 h2 h3 h4 hab i hi
        apply hab i
        simp only [InSection] at hi ⊢
        omega
    · exact h
  | clear => exact ⟨by simp [SecOp.run, SectionManager.clear], by simp [SecOp.run, SectionManager.clear]⟩

theorem secInv_run (ops : List SecOp) : SecInv (runSecs ops).sections := by
  have : ∀ (ops : List SecOp) (m : SectionManager), SecInv m.sections →
      SecInv (ops.foldl SecOp.run m).sections := by
    intro ops
    induction ops with
    | nil => intro m h; exact h
    | cons o ops ih => intro m h; exact ih _ (secInv_step m h o)
  exact this ops .new ⟨by simp [SectionManager.new], by simp [SectionManager.new]⟩

/-! ## C14 -/

/-- **C14**: after any history the sections are ordered by first slide. -/
theorem C14_sorted (ops : List SecOp) :
    (runSecs ops).sections.Pairwise fun a b => a.firstSlide ≤ b.firstSlide :=
  (secInv_run ops).sorted

/-- **C14**: after any history no slide belongs to two sections of the list. -/
theorem C14_disjoint (ops : List SecOp) (i : Nat) :
    ((runSecs ops).sections.filter fun s => s.firstSlide ≤ i ∧ i < s.firstSlide + s.slideCount).length ≤ 1 := by
  have h := (secInv_run ops).disjoint
  generalize (runSecs ops).sections = l at h
  induction l with
  | nil => simp
  | cons s l ih =>
    rw [List.pairwise_cons] at h
    rw [List.filter_cons]
    split
    · rename_i hs
      have : l.filter (fun s => s.firstSlide ≤ i ∧ i < s.firstSlide + s.slideCount) = [] := by
        rw [List.filter_eq_nil_iff]
        intro b hb hbi
        exact h.1 b hb i ⟨by simpa [InSection] using hs, by simpa [InSection] using hbi⟩
      rw [List.length_cons, this]; simp
    · exact ih h.2

/-- **C14**: looking up the section of a slide returns the one section it belongs to, and
nothing exactly when it belongs to none. -/
theorem C14_lookup (ops : List SecOp) (i : Nat) (s : SlideSection) :
    (runSecs ops).sectionForSlide i = some s ↔
      s ∈ (runSecs ops).sections ∧ s.firstSlide ≤ i ∧ i < s.firstSlide + s.slideCount := by
  have h := (secInv_run ops).disjoint
  unfold SectionManager.sectionForSlide
  generalize (runSecs ops).sections = l at h
  have hc : ∀ x : SlideSection, x.containsSlide i = true ↔
      x.firstSlide ≤ i ∧ i < x.firstSlide + x.slideCount := by
    intro x; simp [SlideSection.containsSlide]
  induction l with
  | nil => simp
  | cons x l ih =>
    rw [List.pairwise_cons] at h
    by_cases hx : x.containsSlide i = true
    · rw [List.find?_cons_of_pos (p := fun s => SlideSection.containsSlide s i) hx]
      constructor
      · intro e; cases e; exact ⟨by simp, (hc _).mp hx⟩
      · rintro ⟨hm, hi⟩
        rcases List.mem_cons.mp hm with rfl | hm
        · rfl
        · exact absurd ⟨(hc _).mp hx, hi⟩ (h.1 s hm i)
    · rw [List.find?_cons_of_neg (p := fun s => SlideSection.containsSlide s i) hx]
      refine (ih h.2).trans ?_
      constructor
      · rintro ⟨hm, hi⟩; exact ⟨by simp [hm], hi⟩
      · rintro ⟨hm, hi⟩
        rcases List.mem_cons.mp hm with rfl | hm
        · exact absurd ((hc _).mpr hi) hx
        · exact ⟨hm, hi⟩

/-- **C14**: an add is rejected exactly when it shares a slide with an existing section; a
rejected add changes nothing and an accepted one only adds the section. -/
theorem C14_add_iff (m : SectionManager) (name : Str) (first count : Nat) :
    ((m.addSection name first count).2 = false ↔ ∃ s ∈ m.sections, ∃ i,
      InSection s i ∧ first ≤ i ∧ i < first + count) ∧
    ((m.addSection name first count).2 = false → (m.addSection name first count).1 = m) ∧
    ((m.addSection name first count).2 = true →
      (m.addSection name first count).1.sections.Perm (⟨name, first, count⟩ :: m.sections)) := by
  simp only [SectionManager.addSection]
  split
  · rename_i h
    refine ⟨⟨fun _ => ?_, fun _ => rfl⟩, fun _ => rfl, fun h => absurd h (by simp)⟩
    obtain ⟨s, hs, ho⟩ := List.any_eq_true.mp h
    obtain ⟨i, hi⟩ := (sectionsOverlap_iff _ _).mp ho
    exact ⟨s, hs, i, hi.1, hi.2⟩
  · rename_i h
    refine ⟨⟨fun h => absurd h (by simp), ?_⟩, fun h => absurd h (by simp), fun _ => ?_⟩
    · rintro ⟨s, hs, i, h1, h2⟩
      exact absurd (List.any_eq_true.mpr ⟨s, hs, (sectionsOverlap_iff s ⟨name, first, count⟩).mpr
        ⟨i, h1, h2⟩⟩) h
    · exact (sortByKey_perm _ _).trans (List.perm_append_singleton _ _)

/-- **C14**: removing removes exactly the sections of that name, renaming changes no slide
range. -/
theorem C14_remove_rename (m : SectionManager) (name new : Str) :
    (m.removeSection name).1.sections = m.sections.filter (fun s => s.name ≠ name) ∧
    ((m.removeSection name).2 = true ↔ ∃ s ∈ m.sections, s.name = name) ∧
    (m.renameSection name new).1.sections.map (fun s => (s.firstSlide, s.slideCount)) =
      m.sections.map (fun s => (s.firstSlide, s.slideCount)) := by
  refine ⟨rfl, ?_, ?_⟩
  · simp only [SectionManager.removeSection, decide_eq_true_eq]
    rw [List.length_filter_lt_length_iff_exists]
    simp
  · simp only [SectionManager.renameSection]
    split
    · simp only
      generalize m.sections = l
      induction l with
      | nil => rfl
      | cons s l ih =>
        simp only [SectionManager.renameFirst]
        split
        · simp
        · simp [ih]
    · rfl

/-- A history with a rejected overlap, an out-of-order add, a rename and a removal. -/
example : (runSecs [.add c!"b" 5 3, .add c!"a" 0 5, .add c!"x" 4 2, .add c!"e" 2 0, .rename c!"b" c!"c",
    .remove c!"e"]).sections = [⟨c!"a", 0, 5⟩, ⟨c!"c", 5, 3⟩] := by decide

/-! ## C62 -/

/-- **C62**: the slide ids listed in the section data are ids of slides of the deck
(`256 … 255 + total`), none is listed twice, and a slide is listed exactly when it belongs to a
section. -/
theorem C62_section_ids (ops : List SecOp) (total : Nat) :
    ((runSecs ops).toXmlIds total).flatten.Nodup ∧
    ∀ id, id ∈ ((runSecs ops).toXmlIds total).flatten ↔
      ∃ i < total, id = 256 + i ∧ ∃ s ∈ (runSecs ops).sections, InSection s i := by
  have hmem : ∀ (s : SlideSection) (id : Nat), id ∈ SectionManager.sectionIds total s ↔
      ∃ i < total, id = 256 + i ∧ InSection s i := by
    intro s id
    simp only [SectionManager.sectionIds, List.mem_map, List.mem_filter, List.mem_range,
      decide_eq_true_eq, InSection]
    constructor
    · rintro ⟨i, ⟨h1, h2⟩, rfl⟩
      exact ⟨s.firstSlide + i, h2, by omega, by omega⟩
    · rintro ⟨i, h1, rfl, h2⟩
      exact ⟨i - s.firstSlide, ⟨by omega, by omega⟩, by omega⟩
  constructor
  · unfold SectionManager.toXmlIds
    rw [List.nodup_flatten]
    constructor
    · intro l hl
      obtain ⟨s, _, rfl⟩ := List.mem_map.mp hl
      unfold SectionManager.sectionIds
      refine (List.nodup_range.filter _).map ?_
      intro a b hab; simp only at hab; omega
    · rw [List.pairwise_map]
      refine (secInv_run ops).disjoint.imp ?_
      intro a b hab id h1 h2
      obtain ⟨i, _, e1, h1⟩ := (hmem a id).mp h1
      obtain ⟨j, _, e2, h2⟩ := (hmem b id).mp h2
      have : i = j := by omega
      subst this
      exact hab i ⟨h1, h2⟩
  · intro id
    simp only [SectionManager.toXmlIds, List.mem_flatten, List.mem_map]
    constructor
    · rintro ⟨_, ⟨s, hs, rfl⟩, hid⟩
      obtain ⟨i, hi, e, hin⟩ := (hmem s id).mp hid
      exact ⟨i, hi, e, s, hs, hin⟩
    · rintro ⟨i, hi, e, s, hs, hin⟩
      exact ⟨_, ⟨s, hs, rfl⟩, (hmem s id).mpr ⟨i, hi, e, hin⟩⟩

/-- Slides beyond the end of the deck are not listed. -/
example : (runSecs [.add c!"b" 2 5, .add c!"a" 0 2]).toXmlIds 4 = [[256, 257], [258, 259]] := by decide

end PptRs.Props
