import Verif.Spec.Xml
import Verif.Model.Xml

/-!
# Specification: the document a sequence of writer calls stands for
-/

namespace PptRs.Spec

open PptRs

/-- A character that can be part of an element or attribute name: not a delimiter. -/
def NameChar (c : Char) : Prop := c ≠ ' ' ∧ c ≠ '>' ∧ c ≠ '/' ∧ c ≠ '<' ∧ c ≠ '='

/-- A usable element name: non-empty, no delimiter characters. -/
def ValidName (n : Str) : Prop := n ≠ [] ∧ ∀ c ∈ n, NameChar c

/-- The document a list of writer calls stands for: adjacent texts are one text node, empty
texts are nothing. -/
def prependText (s : Str) : List Node → List Node
  | .text u :: r => if s = [] then .text u :: r else .text (s ++ u) :: r
  | r => if s = [] then r else .text s :: r

mutual
/-- The document content of one written tree followed by `rest`. -/
def treeDoc : WTree → List Node → List Node
  | .text s, rest => prependText s rest
  | .empty n as, rest => .elem n as [] :: rest
  | .elem n as ks, rest => .elem n as (treesDoc ks) :: rest
/-- The document content of a list of written trees. -/
def treesDoc : List WTree → List Node
  | [] => []
  | t :: ts => treeDoc t (treesDoc ts)
end

mutual
/-- All element names are usable names and all attribute names are free of delimiters. No
condition on attribute values or text. -/
def NamesOk : WTree → Prop
  | .text _ => True
  | .empty n as => ValidName n ∧ ∀ kv ∈ as, ∀ c ∈ kv.1, NameChar c
  | .elem n as ks => (ValidName n ∧ ∀ kv ∈ as, ∀ c ∈ kv.1, NameChar c) ∧ AllNamesOk ks
/-- `NamesOk` for every tree of a list. -/
def AllNamesOk : List WTree → Prop
  | [] => True
  | t :: ts => NamesOk t ∧ AllNamesOk ts
end

end PptRs.Spec
