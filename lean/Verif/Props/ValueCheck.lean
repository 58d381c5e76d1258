import Verif.Model.ValueCheck
import Verif.Lemmas.Str
import Verif.Lemmas.PartPath
import Verif.Props.Repair

/-!
# Checks of values and of required parts (C180)
-/

namespace PptRs.Props

open PptRs PptRs.ValueCheck

/-- **C180.** Values are accepted if and only if they are not blank, not empty, within range and positive. -/
theorem C180_accepted {α : Type} (s field : Str) (l : List α) (i n : Nat) :
    (checkStr s field = .ok () ↔ ∃ c ∈ s, isWs c = false) ∧ (checkList l field = .ok () ↔ ∃ x, x ∈ l) ∧
    (checkIndex i n field = .ok () ↔ i < n) ∧ (checkPositive n field = .ok () ↔ 0 < n) := by
  refine ⟨?_, ?_, ?_, ?_⟩
  · unfold checkStr
    by_cases h : trim s = []
    · have hs := trim_eq_nil.mp h
      simp only [h, List.isEmpty_nil, if_true, reduceCtorEq, false_iff]
      rintro ⟨c, hc, hw⟩
      rw [hs c hc] at hw
      cases hw
    · have he : (trim s).isEmpty = false := by simpa using h
      simp only [he, Bool.false_eq_true, if_false, true_iff]
      by_contra hn
      refine h (trim_eq_nil.mpr fun c hc => ?_)
      cases hw : isWs c with
      | true => rfl
      | false => exact absurd ⟨c, hc, hw⟩ hn
  · unfold checkList
    cases l with
    | nil => simp
    | cons a l => simp
  · unfold checkIndex
    by_cases h : i < n <;> simp [h] <;> omega
  · unfold checkPositive
    by_cases h : n = 0 <;> simp [h] <;> omega

/-- **C180.** What is refused is refused with the error that names the field and the problem. -/
theorem C180_refused {α : Type} (s field : Str) (l : List α) (i n : Nat) (e : Kind × Str) :
    (checkStr s field = .error e → e = (.invalidValue, field ++ c!" must not be empty")) ∧
    (checkList l field = .error e → e = (.invalidState, field ++ c!" must not be empty")) ∧
    (checkIndex i n field = .error e →
      e = (.notFound, field ++ c!" index " ++ dec i ++ c!" out of range (count: " ++ dec n ++ c!")")) ∧
    (checkPositive n field = .error e → e = (.invalidValue, field ++ c!" must be positive")) := by
  refine ⟨?_, ?_, ?_, ?_⟩
  · unfold checkStr; split <;> intro h <;> cases h; rfl
  · unfold checkList; split <;> intro h <;> cases h; rfl
  · unfold checkIndex; split <;> intro h <;> cases h; rfl
  · unfold checkPositive; split <;> intro h <;> cases h; rfl

/-- **C180.** The message on an index tells which index and how many there are. -/
theorem C180_index_told (field : Str) (i n j m : Nat) (h : indexMsg field i n = indexMsg field j m) : i = j ∧ n = m := by
  unfold indexMsg at h
  simp only [List.append_assoc] at h
  have h1 := List.append_cancel_left (List.append_cancel_left h)
  have h2 := dec_append_inj (c := ' ') (by decide) (a := c!"out of range (count: " ++ (dec n ++ c!")")) (b := c!"out of range (count: " ++ (dec m ++ c!")")) h1
  refine ⟨h2.1, ?_⟩
  have h3 := List.append_cancel_left h2.2
  exact dec_inj (List.append_cancel_right h3)

/-- **C180.** Exactly the required parts that are not there are told, each as often as it is required and in that order;
none are told if and only if all are there. -/
theorem C180_parts (found : Str → Bool) (required : List Str) (described : List (Str × Str)) :
    (∀ x, x ∈ checkParts found required ↔ ∃ p ∈ required, found p = false ∧ x = .missingPart p none) ∧
    (checkParts found required = [] ↔ ∀ p ∈ required, found p = true) ∧
    (∀ x, x ∈ checkDescribed found described ↔ ∃ p ∈ described, found p.1 = false ∧ x = .missingPart p.1 (some p.2)) ∧
    (checkDescribed found described = [] ↔ ∀ p ∈ described, found p.1 = true) ∧
    (∀ l, checkParts found (required ++ l) = checkParts found required ++ checkParts found l) ∧
    (∀ l, checkDescribed found (described ++ l) = checkDescribed found described ++ checkDescribed found l) := by
  refine ⟨fun x => ?_, ?_, fun x => ?_, ?_, fun l => ?_, fun l => ?_⟩
  · simp only [checkParts, List.mem_map, List.mem_filter, Bool.not_eq_true', and_assoc, eq_comm (a := x)]
  · simp [checkParts, List.filter_eq_nil_iff]
  · simp only [checkDescribed, List.mem_map, List.mem_filter, Bool.not_eq_true', and_assoc, eq_comm (a := x)]
  · simp [checkDescribed, List.filter_eq_nil_iff]
  · simp [checkParts]
  · simp [checkDescribed]

/-- **C180.** The lists of required parts: content types, package relationships and the presentation are in both. -/
theorem C180_required : (∀ p, p ∈ minimalParts ↔ p = c!"[Content_Types].xml" ∨ p = c!"_rels/.rels" ∨ p = c!"ppt/presentation.xml" ∨
      p = c!"docProps/core.xml") ∧
    repairParts.map (·.1) = Repair.requiredParts ∧ (repairParts.map (·.2)).Nodup := by
  refine ⟨fun p => ?_, by decide, by decide⟩
  simp [minimalParts]

/-- **C180.** The message tells the kind of the problem, and for missing parts without description and empty parts the path. -/
theorem C180_message (p q d e : Str) :
    (∀ x : Issue, x.message = (Issue.missingPart p none).message → x = .missingPart p none) ∧
    (∀ x : Issue, x.message = (Issue.emptyXml p).message → x = .emptyXml p) ∧
    (∀ x : Issue, x.message = (Issue.missingPart p (some d)).message → ∃ a b, x = .missingPart a (some b)) ∧
    (∀ x : Issue, x.message = (Issue.invalidXml q e).message → ∃ a b, x = .invalidXml a b) := by
  refine ⟨fun x h => ?_, fun x h => ?_, fun x h => ?_, fun x h => ?_⟩ <;> rcases x with ⟨a, _ | b⟩ | a | ⟨a, b⟩ <;>
    simp [Issue.message] at h ⊢ <;> exact h

/-- **C180 does not hold in full.** The two lists of required parts contradict each other: a package without
`ppt/_rels/presentation.xml.rels` has all parts of `REQUIRED_PARTS_MINIMAL` ("minimum parts required for a readable PPTX")
but not those needed for repair, and one without `docProps/core.xml` has all parts needed for repair but not the minimal ones. -/
theorem C180_minimal_violated :
    let noRels : Str → Bool := fun p => p != c!"ppt/_rels/presentation.xml.rels"
    let noCore : Str → Bool := fun p => p != c!"docProps/core.xml"
    checkParts noRels minimalParts = [] ∧ checkDescribed noRels repairParts ≠ [] ∧
    checkParts noCore minimalParts ≠ [] ∧ checkDescribed noCore repairParts = [] := by decide

/-- **C180 does not hold in full.** The message of an invalid part does not always tell path and error apart: quotes in
them are not escaped, so two different problems can have the same message. -/
theorem C180_ambiguous_violated (a b c : Str) :
    (Issue.invalidXml (a ++ c!"': " ++ b) c).message = (Issue.invalidXml a (b ++ c!"': " ++ c)).message := by
  simp [Issue.message]

example : checkIndex 3 3 c!"Slide" = .error (.notFound, c!"Slide index 3 out of range (count: 3)") := by decide
example : checkStr c!" \t" c!"Title" = .error (.invalidValue, c!"Title must not be empty") := by decide
example : checkParts (fun _ => false) minimalParts = minimalParts.map fun p => .missingPart p none := by decide
example : (Issue.missingPart c!"a" (some c!"b")).message = c!"Missing required part 'a' (b)" := by decide

end PptRs.Props
