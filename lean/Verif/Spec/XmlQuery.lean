import Verif.Spec.Xml

/-!
# Specification: reading text and boxes from a parsed slide
-/

namespace PptRs.Spec

open PptRs

/-- The character data directly inside an element. -/
def textOf : List Node → Str
  | [] => []
  | .text t :: r => t ++ textOf r
  | .elem _ _ _ :: r => textOf r

mutual
/-- The texts of all runs (`a:t` elements), in document order. -/
def runs : Node → List Str
  | .text _ => []
  | .elem n _ ks => if n = c!"a:t" then [textOf ks] else runsL ks
/-- The texts of all runs in a list of nodes. -/
def runsL : List Node → List Str
  | [] => []
  | k :: ks => runs k ++ runsL ks
end

mutual
/-- All text boxes (`p:sp`) and tables (`p:graphicFrame`), in document order. -/
def boxNodes : Node → List Node
  | .text _ => []
  | .elem n as ks =>
    if n = c!"p:sp" then [.elem n as ks]
    else if n = c!"p:graphicFrame" then [.elem n as ks]
    else boxNodesL ks
/-- All text boxes and tables in a list of nodes. -/
def boxNodesL : List Node → List Node
  | [] => []
  | k :: ks => boxNodes k ++ boxNodesL ks
end

mutual
/-- The name of a drawing object: the `name` attribute of its `p:cNvPr`. -/
def objectName : Node → Option Str
  | .text _ => none
  | .elem n as ks => if n = c!"p:cNvPr" then as.lookup c!"name" else objectNameL ks
/-- The first name found in a list of nodes. -/
def objectNameL : List Node → Option Str
  | [] => none
  | k :: ks => (objectName k).or (objectNameL ks)
end

/-- The boxes of a document: the name of each and the texts in it. -/
def boxes (doc : List Node) : List (Option Str × List Str) :=
  (boxNodesL doc).map fun b => (objectName b, runs b)

mutual
/-- All elements with a given name, outermost first, not looking inside a match. -/
def elems (name : Str) : Node → List Node
  | .text _ => []
  | .elem n as ks => if n = name then [.elem n as ks] else elemsL name ks
/-- All elements with a given name in a list of nodes. -/
def elemsL (name : Str) : List Node → List Node
  | [] => []
  | k :: ks => elems name k ++ elemsL name ks
end

/-- An attribute of an element. -/
def attrOf (k : Str) : Node → Option Str
  | .text _ => none
  | .elem _ as _ => as.lookup k

/-- A cell as it is read: its texts, the columns and rows that it spans, and whether it is covered by
a cell to the left or above. -/
structure CellRead where
  texts : List Str
  columns : Option Str
  rows : Option Str
  coveredLeft : Option Str
  coveredAbove : Option Str
deriving DecidableEq

/-- Reading an `a:tc` element. -/
def readCell (k : Node) : CellRead :=
  ⟨runs k, attrOf c!"gridSpan" k, attrOf c!"rowSpan" k, attrOf c!"hMerge" k, attrOf c!"vMerge" k⟩

/-- The cells of a document by row. -/
def tableCells (doc : List Node) : List (List CellRead) :=
  (elemsL c!"a:tr" doc).map fun r => (elems c!"a:tc" r).map readCell

/-- The horizontal alignment of a cell: the `algn` attribute of its paragraph, `l` if there is none
(the default of ECMA-376 21.1.2.2.7). -/
def cellAlign (k : Node) : Str :=
  ((elems c!"a:pPr" k).head?.bind (attrOf c!"algn")).getD c!"l"

/-- The vertical alignment of a cell: the `anchor` attribute of its properties, `t` if there is none
(the default of ECMA-376 21.1.3.17). -/
def cellAnchor (k : Node) : Str :=
  ((elems c!"a:tcPr" k).head?.bind (attrOf c!"anchor")).getD c!"t"

/-- `s` is a complete piece of XML: wherever it occurs between tags, it is read as the nodes `ks`. -/
def ReadsAs (s : Str) (ks : List Node) : Prop :=
  ∀ top st, steps ⟨top, st, .text []⟩ s = some ⟨{ top with kids := top.kids ++ ks }, st, .text []⟩

/-- What follows the first `?>`. -/
def afterPi : Str → Option Str
  | [] => none
  | '?' :: '>' :: r => some r
  | _ :: r => afterPi r

/-- Reading a part: an XML declaration, white space, and then nodes. -/
def document (x : Str) : Option (List Node) :=
  if (c!"<?xml ").isPrefixOf x then
    (afterPi x).bind fun r => parse (r.dropWhile fun c => c = ' ' ∨ c = '\n' ∨ c = '\r' ∨ c = '\t')
  else none

end PptRs.Spec

/-- Text that stands for itself in XML. -/
def PptRs.Plain (s : PptRs.Str) : Prop := '&' ∉ s ∧ '<' ∉ s ∧ '"' ∉ s
