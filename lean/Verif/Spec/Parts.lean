import Verif.Spec.XmlQuery
import Verif.Model.Parts

/-!
# Specification: layouts, masters, notes and document properties
-/

namespace PptRs.Spec

open PptRs

/-- The kind of a placeholder: the `type` attribute of its `p:ph`. -/
def placeholderKind (b : Node) : Option Str := (elems c!"p:ph" b).head?.bind (attrOf c!"type")

/-- The placeholders of a document: the kind of each and the texts in it. -/
def placeholders (doc : List Node) : List (Option Str × List Str) :=
  (elemsL c!"p:sp" doc).map fun b => (placeholderKind b, runs b)

/-- The placeholders of a document with their index. -/
def layoutPlaceholders (doc : List Node) : List (Option Str × Option Str) :=
  (elemsL c!"p:ph" doc).map fun b => (attrOf c!"type" b, attrOf c!"idx" b)

/-- The type of a layout (ECMA-376 19.7.15). -/
def layoutType (doc : List Node) : Option Str :=
  (elemsL c!"p:sldLayout" doc).head?.bind (attrOf c!"type")

/-- What a user asks for with a layout: the layout type and the placeholders of ECMA-376. -/
def layoutMeaning : SlideLayout → Str × List (Str × Option Str)
  | .centeredTitle => (c!"title", [(c!"ctrTitle", none), (c!"subTitle", none)])
  | .titleAndContent => (c!"obj", [(c!"title", none), (c!"body", some c!"1")])
  | .twoColumn => (c!"twoObj", [(c!"title", none), (c!"body", some c!"1"), (c!"body", some c!"2")])
  | .sectionHeader => (c!"secHead", [(c!"title", none), (c!"body", some c!"1")])
  | .blank => (c!"blank", [])
  | .titleOnly => (c!"titleOnly", [(c!"title", none)])
  | .titleAndBigContent => (c!"obj", [(c!"title", none), (c!"body", some c!"1")])

/-- The children of an element. -/
def kidsOf : Node → List Node
  | .text _ => []
  | .elem _ _ ks => ks

/-- The texts of the elements with the given name. -/
def textsOf (name : Str) (doc : List Node) : List Str := (elemsL name doc).map fun k => textOf (kidsOf k)

/-- The titles listed in the extended properties. -/
def titlesOfParts (doc : List Node) : List Str :=
  (elemsL c!"TitlesOfParts" doc).flatMap fun k => textsOf c!"vt:lpstr" [k]

/-! ### Dates -/

/-- Leap years of the Gregorian calendar. -/
def isLeap (y : Nat) : Bool := (y % 4 == 0 && y % 100 != 0) || y % 400 == 0

/-- The days of a year. -/
def yearDays (y : Nat) : Nat := if isLeap y then 366 else 365

/-- The days of a month. -/
def monthDays (y m : Nat) : Nat :=
  if m = 2 then (if isLeap y then 29 else 28)
  else if m = 4 ∨ m = 6 ∨ m = 9 ∨ m = 11 then 30 else 31

/-- The days from 1970-01-01 to the first day of the year `1970 + k`. -/
def daysToYear : Nat → Nat
  | 0 => 0
  | k + 1 => daysToYear k + yearDays (1970 + k)

/-- The days from the first day of a year to the first day of month `k + 1`. -/
def daysToMonth (y : Nat) : Nat → Nat
  | 0 => 0
  | k + 1 => daysToMonth y k + monthDays y (k + 1)

/-- The date exists in the calendar. -/
def _root_.PptRs.Stamp.Valid (t : Stamp) : Prop :=
  1970 ≤ t.year ∧ 1 ≤ t.month ∧ t.month ≤ 12 ∧ 1 ≤ t.day ∧ t.day ≤ monthDays t.year t.month ∧
    t.hours < 24 ∧ t.minutes < 60 ∧ t.seconds < 60

/-- The seconds since 1970 that a timestamp denotes. -/
def _root_.PptRs.Stamp.instant (t : Stamp) : Nat :=
  (daysToYear (t.year - 1970) + daysToMonth t.year (t.month - 1) + (t.day - 1)) * 86400
    + t.hours * 3600 + t.minutes * 60 + t.seconds

end PptRs.Spec
