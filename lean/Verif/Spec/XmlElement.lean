import Verif.Model.XmlElement
import Verif.Spec.XmlQuery

/-!
# Specification: element trees and their events

The event stream of a document is that of the `xml` crate with its default configuration: character
data that consists of white space only is reported as `Whitespace`, other character data as
`Characters`, and namespace declarations are not attributes.
-/

namespace PptRs.Spec

open PptRs

/-- XML white space. -/
def BlankText (t : Str) : Prop := ∀ c ∈ t, c = ' ' ∨ c = '\t' ∨ c = '\n' ∨ c = '\r'

instance (t : Str) : Decidable (BlankText t) := inferInstanceAs (Decidable (∀ _ ∈ t, _))

/-- A namespace declaration. -/
def isNsDecl (k : Str) : Bool := k = c!"xmlns" || (c!"xmlns:").isPrefixOf k

/-- The attributes that are not namespace declarations. -/
def realAttrs (as : List (Str × Str)) : List (Str × Str) := as.filter fun a => !isNsDecl a.1

mutual
/-- The events of a node. -/
def events : Node → List XmlEvent
  | .text t => if BlankText t then [.other] else [.characters t]
  | .elem n as ks => .startElement n (realAttrs as) :: (eventsIn ks ++ [.endElement])
/-- The events of some nodes. -/
def eventsIn : List Node → List XmlEvent
  | [] => []
  | k :: ks => events k ++ eventsIn ks
end

/-- What remains of the character data directly in an element. -/
def solidText : List Node → Str
  | [] => []
  | .text t :: r => (if BlankText t then [] else t) ++ solidText r
  | .elem _ _ _ :: r => solidText r

mutual
/-- The element tree of a node. -/
def toElement : Node → List XmlElement
  | .text _ => []
  | .elem n as ks => [.mk n (realAttrs as) (toElements ks) (solidText ks)]
/-- The element trees of some nodes. -/
def toElements : List Node → List XmlElement
  | [] => []
  | k :: ks => toElement k ++ toElements ks
end

mutual
/-- All elements below a node and the node itself, in document order. -/
def preorder : XmlElement → List XmlElement
  | .mk n as ks t => .mk n as ks t :: preorderIn ks
/-- All elements in some trees, in document order. -/
def preorderIn : List XmlElement → List XmlElement
  | [] => []
  | k :: ks => preorder k ++ preorderIn ks
end

/-- The name after the last colon. -/
def afterColon (n : Str) : Str := (n.reverse.takeWhile (· ≠ ':')).reverse

mutual
/-- All character data of a node, in document order. -/
def allText : Node → Str
  | .text t => t
  | .elem _ _ ks => allTextIn ks
/-- All character data of some nodes, in document order. -/
def allTextIn : List Node → Str
  | [] => []
  | k :: ks => allText k ++ allTextIn ks
end

mutual
/-- The names of the attributes of each element are different. -/
def AttrsOk : Node → Prop
  | .text _ => True
  | .elem _ as ks => ((realAttrs as).map (·.1)).Nodup ∧ AttrsOkIn ks
/-- For each of some nodes. -/
def AttrsOkIn : List Node → Prop
  | [] => True
  | k :: ks => AttrsOk k ∧ AttrsOkIn ks
end

end PptRs.Spec
