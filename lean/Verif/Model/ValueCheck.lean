import Verif.Model.Repair

/-!
# Checks of values and of required parts, src/core/validation.rs

An error is its kind and its message. The set of parts found is a predicate.
-/

namespace PptRs.ValueCheck

open PptRs

/-- The kinds of `PptxError` that the checks give, src/core/validation.rs 70-96. -/
inductive Kind where
  | invalidValue | invalidState | notFound
deriving DecidableEq

/-- `must_not_be_empty`, src/exc/messages.rs 24-26. -/
def notEmptyMsg (field : Str) : Str := field ++ c!" must not be empty"

/-- `must_be_positive`, src/exc/messages.rs 29-31. -/
def positiveMsg (field : Str) : Str := field ++ c!" must be positive"

/-- `index_out_of_range`, src/exc/messages.rs 19-21. -/
def indexMsg (field : Str) (index count : Nat) : Str :=
  field ++ c!" index " ++ dec index ++ c!" out of range (count: " ++ dec count ++ c!")"

/-- `validate_non_empty_str`, src/core/validation.rs 68-73. -/
def checkStr (value field : Str) : Except (Kind × Str) Unit :=
  if (trim value).isEmpty then .error (.invalidValue, notEmptyMsg field) else .ok ()

/-- `validate_non_empty`, src/core/validation.rs 76-81. -/
def checkList {α : Type} (items : List α) (field : Str) : Except (Kind × Str) Unit :=
  if items.isEmpty then .error (.invalidState, notEmptyMsg field) else .ok ()

/-- `validate_index`, src/core/validation.rs 84-91. -/
def checkIndex (index count : Nat) (field : Str) : Except (Kind × Str) Unit :=
  if index ≥ count then .error (.notFound, indexMsg field index count) else .ok ()

/-- `validate_positive`, src/core/validation.rs 94-99. -/
def checkPositive (value : Nat) (field : Str) : Except (Kind × Str) Unit :=
  if value = 0 then .error (.invalidValue, positiveMsg field) else .ok ()

/-- `ValidationIssue`, src/core/validation.rs 30-42. -/
inductive Issue where
  | missingPart (path : Str) (description : Option Str)
  | emptyXml (path : Str)
  | invalidXml (path error : Str)
deriving DecidableEq

/-- `ValidationIssue::message`, src/core/validation.rs 45-54, with src/exc/messages.rs 4-6, 34-36 and 44-46. -/
def Issue.message : Issue → Str
  | .missingPart p (some d) => c!"Missing required part '" ++ p ++ c!"' (" ++ d ++ c!")"
  | .missingPart p none => c!"Missing required part: " ++ p
  | .emptyXml p => c!"Empty XML content in '" ++ p ++ c!"'"
  | .invalidXml p e => c!"Invalid XML in '" ++ p ++ c!"': " ++ e

/-- `REQUIRED_PARTS_MINIMAL`, src/core/validation.rs 10-15. -/
def minimalParts : List Str := [c!"[Content_Types].xml", c!"_rels/.rels", c!"ppt/presentation.xml", c!"docProps/core.xml"]

/-- `REQUIRED_PARTS_REPAIR`, src/core/validation.rs 18-26. -/
def repairParts : List (Str × Str) := [
  (c!"[Content_Types].xml", c!"Content types definition"),
  (c!"_rels/.rels", c!"Package relationships"),
  (c!"ppt/presentation.xml", c!"Presentation document"),
  (c!"ppt/_rels/presentation.xml.rels", c!"Presentation relationships")]

/-- `check_required_parts`, src/core/validation.rs 135-147. -/
def checkParts (found : Str → Bool) (required : List Str) : List Issue :=
  (required.filter fun p => !found p).map fun p => .missingPart p none

/-- `check_required_parts_with_descriptions`, src/core/validation.rs 150-162. -/
def checkDescribed (found : Str → Bool) (required : List (Str × Str)) : List Issue :=
  (required.filter fun p => !found p.1).map fun p => .missingPart p.1 (some p.2)

end PptRs.ValueCheck
