import Verif.Model.WebParser

/-!
# Specification: pages as they are written
-/

namespace PptRs.Spec

open PptRs
open PptRs.Web (Dom)

/-- The words of a text: a character that is no white space begins a word or stands before the word that follows. -/
def textWords : Str → List Str
  | [] => []
  | c :: r =>
    if isWs c then textWords r
    else
      match r.head?, textWords r with
      | some d, w :: ws => if isWs d then [c] :: w :: ws else (c :: w) :: ws
      | _, ws => [c] :: ws

/-- A text as a browser shows it: the words with single blanks between them. -/
def shown (s : Str) : Str := joinStr c!" " (textWords s)

mutual
/-- The texts of a document in order. -/
def domText : Dom → Str
  | .text s => s
  | .el _ _ l => domTexts l

def domTexts : List Dom → Str
  | [] => []
  | d :: l => domText d ++ domTexts l
end

/-- Elements that are not part of the text of a page. -/
def neverShown : List Str :=
  [c!"script", c!"style", c!"noscript", c!"svg", c!"form", c!"button", c!"input", c!"select", c!"textarea", c!"iframe"]

/-- Elements that are content themselves. -/
def contentTags : List Str :=
  [c!"h1", c!"h2", c!"h3", c!"h4", c!"h5", c!"h6", c!"p", c!"li", c!"blockquote", c!"pre", c!"code", c!"img", c!"table"]

/-- The elements that hold text. -/
inductive LeafKind where
  | heading (level : Nat)
  | paragraph
  | item
  | quote
  | pre
  | code
deriving DecidableEq

/-- Its element. -/
def LeafKind.tag : LeafKind → Str
  | .heading n => c!"h" ++ dec n
  | .paragraph => c!"p"
  | .item => c!"li"
  | .quote => c!"blockquote"
  | .pre => c!"pre"
  | .code => c!"code"

/-- The content of a page: boxes (sections, lists, …), elements with text, pictures, tables, text outside of these elements,
and elements that are not shown. -/
inductive Flow where
  | box (name : Str) (attrs : List (Str × Str)) (children : List Flow)
  | leaf (kind : LeafKind) (attrs : List (Str × Str)) (content : List Dom)
  | image (src alt : Str)
  | table (rows : List (List (Bool × List Dom)))
  | loose (s : Str)
  | hidden (name : Str) (attrs : List (Str × Str)) (content : List Dom)

/-- A cell; the flag is for headers. -/
def cellDom (c : Bool × List Dom) : Dom := .el (if c.1 then c!"th" else c!"td") [] c.2

/-- A row. -/
def rowDom (r : List (Bool × List Dom)) : Dom := .el c!"tr" [] (r.map cellDom)

mutual
/-- The document. -/
def Flow.dom : Flow → Dom
  | .box n a l => .el n a (flowDoms l)
  | .leaf k a l => .el k.tag a l
  | .image src alt => .el c!"img" [(c!"src", src), (c!"alt", alt)] []
  | .table rows => .el c!"table" [] [.el c!"tbody" [] (rows.map rowDom)]
  | .loose s => .text s
  | .hidden n a l => .el n a l

def flowDoms : List Flow → List Dom
  | [] => []
  | f :: l => f.dom :: flowDoms l
end

/-- The block of an element with text; code keeps its line breaks. -/
def leafBlock (k : LeafKind) (content : List Dom) : WebBlock :=
  match k with
  | .heading n => ⟨if n = 1 then .title else .heading n, shown (domTexts content)⟩
  | .paragraph => ⟨.paragraph, shown (domTexts content)⟩
  | .item => ⟨.listItem, shown (domTexts content)⟩
  | .quote => ⟨.quote, shown (domTexts content)⟩
  | .pre => ⟨.code, trim (domTexts content)⟩
  | .code => ⟨.code, trim (domTexts content)⟩

mutual
/-- What a reader of the page finds, in order, as far as it is asked for. -/
def Flow.blocks (images tables code : Bool) : Flow → List WebBlock
  | .box _ _ l => flowBlocks images tables code l
  | .leaf k _ l => if code = false ∧ (k = .pre ∨ k = .code) then [] else [leafBlock k l]
  | .image src alt => if images then [⟨.image src alt, []⟩] else []
  | .table rows => if tables then [⟨.table (rows.map fun r => r.map fun c => shown (domTexts c.2)), []⟩] else []
  | .loose _ => []
  | .hidden _ _ _ => []

def flowBlocks (images tables code : Bool) : List Flow → List WebBlock
  | [] => []
  | f :: l => f.blocks images tables code ++ flowBlocks images tables code l
end

/-- The pictures among the blocks. -/
def pictures (l : List WebBlock) : List (Str × Str) :=
  l.filterMap fun b => match b.kind with
    | .image src alt => some (src, alt)
    | _ => none

mutual
/-- The number of elements one inside the other. -/
def Flow.height : Flow → Nat
  | .box _ _ l => flowsHeight l + 1
  | .loose _ => 0
  | _ => 1

def flowsHeight : List Flow → Nat
  | [] => 0
  | f :: l => max f.height (flowsHeight l)
end

/-- A whole page. -/
structure WebDoc where
  title : Option Str := none
  description : Option Str := none
  body : List Flow := []

/-- The head of a page. -/
def WebDoc.head (d : WebDoc) : Dom :=
  .el c!"head" [] ((d.title.map fun t => Dom.el c!"title" [] [.text t]).toList
    ++ (d.description.map fun t => Dom.el c!"meta" [(c!"name", c!"description"), (c!"content", t)] []).toList)

/-- The page as the HTML parser returns it. -/
def WebDoc.dom (d : WebDoc) : Dom := .el c!"html" [] [d.head, .el c!"body" [] (flowDoms d.body)]

end PptRs.Spec
