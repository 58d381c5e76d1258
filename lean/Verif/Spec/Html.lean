import Verif.Model.Str

/-!
# Web pages as trees

Elements with content, elements without a closing tag (`<br>`, `<img>`, …) and texts, and how they are written.
-/

namespace PptRs.Spec
open PptRs

inductive Html where
  | text (s : Str)
  | void (name : Str) (attrs : List (Str × Str))
  | elem (name : Str) (attrs : List (Str × Str)) (kids : List Html)

/-- What the importer promises to leave out. -/
def hiddenNames : List Str :=
  [c!"script", c!"style", c!"noscript", c!"nav", c!"form", c!"svg", c!"canvas", c!"iframe", c!"title"]

mutual
/-- The page without hidden elements. -/
def Html.visible : Html → List Html
  | .text s => [.text s]
  | .void n a => if n ∈ hiddenNames then [] else [.void n a]
  | .elem n a kids => if n ∈ hiddenNames then [] else [.elem n a (visibleL kids)]
def visibleL : List Html → List Html
  | [] => []
  | h :: t => h.visible ++ visibleL t
end

mutual
/-- Number of elements without closing tag. -/
def Html.voids : Html → Nat
  | .text _ => 0
  | .void _ _ => 1
  | .elem _ _ kids => voidsL kids
def voidsL : List Html → Nat
  | [] => 0
  | h :: t => h.voids + voidsL t
end

mutual
/-- No hidden element lacks a closing tag or contains an element that does. -/
def Html.closedHidden : Html → Bool
  | .text _ => true
  | .void n _ => !hiddenNames.contains n
  | .elem n _ kids => if hiddenNames.contains n then voidsL kids == 0 else closedHiddenL kids
def closedHiddenL : List Html → Bool
  | [] => true
  | h :: t => h.closedHidden && closedHiddenL t
end

/-- A character in text or in a quoted attribute value. -/
def htmlEsc (c : Char) : Str :=
  if c = '&' then c!"&amp;" else if c = '<' then c!"&lt;" else if c = '>' then c!"&gt;"
  else if c = '"' then c!"&quot;" else if c = '\'' then c!"&#39;" else [c]

def writeHtmlAttrs (attrs : List (Str × Str)) : Str :=
  attrs.flatMap fun a => c!" " ++ a.1 ++ c!"=\"" ++ a.2.flatMap htmlEsc ++ c!"\""

mutual
/-- The page as text. -/
def Html.write : Html → Str
  | .text s => s.flatMap htmlEsc
  | .void n a => c!"<" ++ n ++ writeHtmlAttrs a ++ c!">"
  | .elem n a kids => c!"<" ++ n ++ writeHtmlAttrs a ++ c!">" ++ writeL kids ++ c!"</" ++ n ++ c!">"
def writeL : List Html → Str
  | [] => []
  | h :: t => h.write ++ writeL t
end

/-- Lower-case letters and digits. -/
def isHtmlName (n : Str) : Bool := n ≠ [] && n.all fun c => c.isLower || c.isDigit

def Html.isText : Html → Bool
  | .text _ => true
  | _ => false

mutual
/-- Tags are written in lower case, texts are not blank and not next to each other. -/
def Html.proper : Html → Bool
  | .text s => s.any fun c => !isWs c
  | .void n a => isHtmlName n && a.all (fun x => isHtmlName x.1)
  | .elem n a kids => isHtmlName n && a.all (fun x => isHtmlName x.1) && properL kids
def properL : List Html → Bool
  | [] => true
  | h :: t => h.proper && !(h.isText && (t.head?.any Html.isText)) && properL t
end

/-! ### Articles: headings, paragraphs, lists, code, tables and quotations -/

inductive Inline where
  | text (s : Str)
  | strong (s : Str)
  | em (s : Str)
  | br
  | link (href s : Str)

def Inline.html : Inline → Html
  | .text s => .text s
  | .strong s => .elem c!"strong" [] [.text s]
  | .em s => .elem c!"em" [] [.text s]
  | .br => .void c!"br" []
  | .link h s => .elem c!"a" [(c!"href", h)] [.text s]

/-- The text of inline content; bold and italic text is marked as in Markdown. -/
def Inline.show : Inline → Str
  | .text s => s
  | .strong s => c!"**" ++ s ++ c!"**"
  | .em s => c!"*" ++ s ++ c!"*"
  | .br => c!"\n"
  | .link _ s => s

def showL (l : List Inline) : Str := l.flatMap Inline.show

inductive ArticleBlock where
  | para (l : List Inline)
  | list (ordered : Bool) (items : List (List Inline))
  | sub (level : Fin 5) (l : List Inline)
  | code (s : Str)
  | table (rows : List (List Str))
  | quote (s : Str)

/-- `h2` to `h6`. -/
def subName (k : Fin 5) : Str := ([c!"h2", c!"h3", c!"h4", c!"h5", c!"h6"][k.val]?).getD []

def itemHtml (l : List Inline) : Html := .elem c!"li" [] (l.map Inline.html)
def cellHtml (c : Str) : Html := .elem c!"td" [] [.text c]
def rowHtml (r : List Str) : Html := .elem c!"tr" [] (r.map cellHtml)

def ArticleBlock.html : ArticleBlock → Html
  | .para l => .elem c!"p" [] (l.map Inline.html)
  | .list ord items => .elem (if ord then c!"ol" else c!"ul") [] (items.map itemHtml)
  | .sub k l => .elem (subName k) [] (l.map Inline.html)
  | .code s => .elem c!"pre" [] [.elem c!"code" [] [.text s]]
  | .table rows => .elem c!"table" [] (rows.map rowHtml)
  | .quote s => .elem c!"blockquote" [] [.text s]

structure ArticleSection where
  title : List Inline
  blocks : List ArticleBlock

def ArticleSection.html (s : ArticleSection) : List Html :=
  .elem c!"h1" [] (s.title.map Inline.html) :: s.blocks.map ArticleBlock.html

def articleHtml (a : List ArticleSection) : List Html := a.flatMap ArticleSection.html

/-- Text without the white space around it, if there is anything else. -/
def filled (s : Str) : List Str := if trim s = [] then [] else [trim s]

/-- The bullets of a block. -/
def ArticleBlock.bullets : ArticleBlock → List Str
  | .para l => filled (showL l)
  | .list _ items => items.flatMap fun l => filled (showL l)
  | .sub _ l => (filled (showL l)).map fun t => c!"**" ++ t ++ c!"**"
  | _ => []

def ArticleBlock.isSub : ArticleBlock → Bool
  | .sub _ _ => true
  | _ => false

/-- The bullets of a slide: headings always, other text as long as there is room. -/
def fillBullets (max : Nat) (c : List Str) (b : ArticleBlock) : List Str :=
  c ++ if b.isSub then b.bullets else b.bullets.take (max - c.length)

def ArticleBlock.codes : ArticleBlock → List Str
  | .code s => if s = [] then [] else [trim s]
  | _ => []

def ArticleBlock.notes : ArticleBlock → List Str
  | .quote s => filled s
  | _ => []

/-- The rows of a table: those with cells. -/
def ArticleBlock.rows : ArticleBlock → List (List (List Str))
  | .table rows => if rows.filter (· ≠ []) = [] then [] else [(rows.filter (· ≠ [])).map (·.map trim)]
  | _ => []

end PptRs.Spec
