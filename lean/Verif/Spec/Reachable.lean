import Verif.Spec.Builder

/-!
# Specification: the parts a reader finds

A reader of a package starts at the relationships of the package, `_rels/.rels`, and follows them to parts; from a
part it goes on with the relationships of that part (ECMA-376 part 2, 6.5).
-/

namespace PptRs.Spec

open PptRs

/-- `rels` is where the relationships of the part `part` are: `_rels/name.rels` in the same folder. -/
def relsOf (rels part : Str) : Prop :=
  ∃ dir file, part = dir ++ c!"/" ++ file ∧ '/' ∉ file ∧ rels = dir ++ c!"/_rels/" ++ file ++ c!".rels"

/-- A part is reached from the package over internal relationships. -/
inductive Reached (l : List Entry) : Str → Prop
  | root {p : PartName} {rs : List RelEntry} {r : RelEntry} {t : Str} (h : ⟨p, .rels rs⟩ ∈ l)
      (hp : p.path = c!"_rels/.rels") (hr : r ∈ rs) (hi : r.external = false) (ht : leadsTo p r = some t) : Reached l t
  | step {s : Str} {p : PartName} {rs : List RelEntry} {r : RelEntry} {t : Str} (hs : Reached l s)
      (h : ⟨p, .rels rs⟩ ∈ l) (hp : relsOf p.path s) (hr : r ∈ rs) (hi : r.external = false)
      (ht : leadsTo p r = some t) : Reached l t

end PptRs.Spec
