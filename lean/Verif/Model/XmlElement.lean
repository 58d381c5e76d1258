import Verif.Model.AMap
import Verif.Model.Str

/-!
# The XML tree of the library's own reader

`oxml/xmlchemy.rs`: an element tree built from the events of the `xml` crate. The namespace of an
element is stored by the code but never used, so it is left out.
-/

namespace PptRs

/-- `XmlElement`, src/oxml/xmlchemy.rs 12-25. -/
inductive XmlElement where
  | mk (tag : Str) (attributes : AMap Str Str) (children : List XmlElement) (text : Str)

/-- The events of the `xml` crate as `XmlParser::parse` distinguishes them
(src/oxml/xmlchemy.rs 142-194). Names are written with their prefix. `other` stands for all events
that are ignored: `Whitespace`, `Comment`, `ProcessingInstruction`, `StartDocument`, `EndDocument`. -/
inductive XmlEvent where
  | startElement (tag : Str) (attributes : List (Str × Str))
  | endElement
  | characters (t : Str)
  | cdata (t : Str)
  | other
  | error

namespace XmlElement

/-- The tag with its prefix. -/
def tag : XmlElement → Str | mk t _ _ _ => t

/-- The attributes. -/
def attributes : XmlElement → AMap Str Str | mk _ a _ _ => a

/-- The child elements. -/
def children : XmlElement → List XmlElement | mk _ _ c _ => c

/-- The character data directly in the element. -/
def text : XmlElement → Str | mk _ _ _ t => t

/-- `local_name`, src/oxml/xmlchemy.rs 30: `tag.split(':').next_back()`. -/
def localName (e : XmlElement) : Str := (splitChar ':' e.tag).getLast?.getD e.tag

/-- `new`, src/oxml/xmlchemy.rs 29-39. -/
def new (tag : Str) : XmlElement := mk tag [] [] []

/-- `attr`, src/oxml/xmlchemy.rs 55-57. -/
def attr (e : XmlElement) (name : Str) : Option Str := e.attributes.get name

/-- `set_attr`, src/oxml/xmlchemy.rs 60-62. -/
def setAttr : XmlElement → Str → Str → XmlElement
  | mk t a c x, name, value => mk t (a.insert name value) c x

/-- `add_child`, src/oxml/xmlchemy.rs 65-67. -/
def addChild : XmlElement → XmlElement → XmlElement
  | mk t a c x, child => mk t a (c ++ [child]) x

/-- `text.push_str`, src/oxml/xmlchemy.rs 182 and 187. -/
def pushText : XmlElement → Str → XmlElement
  | mk t a c x, more => mk t a c (x ++ more)

/-- `find`, src/oxml/xmlchemy.rs 70-72. -/
def find (e : XmlElement) (name : Str) : Option XmlElement :=
  e.children.find? fun c => c.localName = name

/-- `find_all`, src/oxml/xmlchemy.rs 75-80. -/
def findAll (e : XmlElement) (name : Str) : List XmlElement :=
  e.children.filter fun c => c.localName = name

mutual
/-- `find_descendant`, src/oxml/xmlchemy.rs 83-93. -/
def findDescendant (name : Str) : XmlElement → Option XmlElement
  | mk _ _ c _ => findIn name c
/-- The loop of `find_descendant`. -/
def findIn (name : Str) : List XmlElement → Option XmlElement
  | [] => none
  | c :: cs =>
    if c.localName = name then some c
    else
      match findDescendant name c with
      | some found => some found
      | none => findIn name cs
end

mutual
/-- `collect_descendants`, src/oxml/xmlchemy.rs 102-109: what is appended to `results`. -/
def findAllDescendants (name : Str) : XmlElement → List XmlElement
  | mk _ _ c _ => collectIn name c
/-- The loop of `collect_descendants`. -/
def collectIn (name : Str) : List XmlElement → List XmlElement
  | [] => []
  | c :: cs =>
    (if c.localName = name then [c] else []) ++ findAllDescendants name c ++ collectIn name cs
end

mutual
/-- `text_content`, src/oxml/xmlchemy.rs 112-118. -/
def textContent : XmlElement → Str
  | mk _ _ c x => x ++ textIn c
/-- The loop of `text_content`. -/
def textIn : List XmlElement → Str
  | [] => []
  | c :: cs => textContent c ++ textIn cs
end

end XmlElement

/-- The variables of `XmlParser::parse`, src/oxml/xmlchemy.rs 138-139; the top of the stack is the
head of the list. -/
structure TreeBuilder where
  stack : List XmlElement := []
  root : Option XmlElement := none

namespace TreeBuilder

/-- `StartElement`, src/oxml/xmlchemy.rs 143-170. -/
def start (b : TreeBuilder) (tag : Str) (attributes : List (Str × Str)) : TreeBuilder :=
  { b with stack := attributes.foldl (fun e a => e.setAttr a.1 a.2) (.new tag) :: b.stack }

/-- `EndElement`, src/oxml/xmlchemy.rs 171-179. -/
def finish (b : TreeBuilder) : TreeBuilder :=
  match b.stack with
  | [] => b
  | [e] => { stack := [], root := some e }
  | e :: p :: r => { b with stack := p.addChild e :: r }

/-- `Characters` and `CData`, src/oxml/xmlchemy.rs 180-189. -/
def chars (b : TreeBuilder) (t : Str) : TreeBuilder :=
  match b.stack with
  | [] => b
  | e :: r => { b with stack := e.pushText t :: r }

/-- The loop, src/oxml/xmlchemy.rs 141-195; `none` is the error. -/
def run (b : TreeBuilder) : List XmlEvent → Option TreeBuilder
  | [] => some b
  | .startElement tag as :: r => run (b.start tag as) r
  | .endElement :: r => run b.finish r
  | .characters t :: r => run (b.chars t) r
  | .cdata t :: r => run (b.chars t) r
  | .other :: r => run b r
  | .error :: _ => none

end TreeBuilder

/-- `XmlParser::parse` on the events of the reader, src/oxml/xmlchemy.rs 136-198; `none` is an
error. -/
def XmlElement.ofEvents (l : List XmlEvent) : Option XmlElement :=
  (TreeBuilder.run {} l).bind (·.root)

end PptRs
