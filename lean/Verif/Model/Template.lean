import Verif.Model.Xml

/-!
# Formatted XML

The generators build XML with `format!` and `push_str`. A formatted string is modelled as the list
of its parts.
-/

namespace PptRs

/-- One part of a formatted string. -/
inductive Part where
  /-- text of the format string -/
  | lit (s : Str)
  /-- an argument passed through `escape_xml` -/
  | esc (s : Str)
  /-- an argument inserted as it is -/
  | raw (s : Str)

/-- What a part contributes to the output. -/
def Part.render : Part → Str
  | .lit s => s
  | .esc s => escapeXml s
  | .raw s => s

/-- The output of `format!` or of a sequence of `push_str` calls. -/
def fmt (ps : List Part) : Str := ps.flatMap Part.render

/-- An integer argument. -/
def Part.num (n : Nat) : Part := .raw (dec n)

open Lean in
/-- `t!"<a x=\"{p}\"/>"` is the list of the parts of the format string, the arguments being terms of
type `Part`. -/
macro:max "t!" s:interpolatedStr(term) : term => do
  let parts ← s.raw.getArgs.filterMapM fun x => do
    match x.isInterpolatedStrLit? with
    | none => pure (some (⟨x⟩ : TSyntax `term))
    | some str =>
      if str.isEmpty then pure none
      else
        let es := str.toList.toArray.map fun c => Syntax.mkCharLit c
        pure (some (← `(Part.lit [$es,*])))
  `(([$parts,*] : List Part))

end PptRs
