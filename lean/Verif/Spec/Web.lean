import Verif.Model.Web

/-!
# Specification: a page as slides
-/

namespace PptRs.Spec

open PptRs

/-- The pages of `m` items each, the last one possibly shorter; `n` is at least the number of items. -/
def pagesFuel {α : Type} (m : Nat) : Nat → List α → List (List α)
  | 0, _ => []
  | n + 1, l => if l.isEmpty then [] else l.take m :: pagesFuel m n (l.drop m)

def pages {α : Type} (m : Nat) (l : List α) : List (List α) := pagesFuel m l.length l

/-- Slides for a heading: the first page has the heading as title, the others the heading marked as continued. -/
def headed (heading : Str) : List (List Str) → List WebSlide
  | [] => []
  | p :: ps => ⟨heading, p⟩ :: ps.map fun q => ⟨heading ++ c!" (cont.)", q⟩

end PptRs.Spec
