import Verif.Model.Web
import Verif.Model.HtmlImport

/-!
# Reading web pages

src/web2ppt/parser.rs. The HTML parser (`scraper`) is not modelled: a page is the tree of elements and texts that it
returns, without comments. `none` is a panic.
-/

namespace PptRs.Web

open PptRs

/-- A node of the document. -/
inductive Dom where
  | el (name : Str) (attrs : List (Str × Str)) (children : List Dom)
  | text (s : Str)

/-- `ElementRef::value().attr(name)`. -/
def attr (attrs : List (Str × Str)) (name : Str) : Option Str := (attrs.find? fun p => p.1 = name).map (·.2)

mutual
/-- `ElementRef::text().collect::<String>()`: all texts below a node. -/
def Dom.textOf : Dom → Str
  | .el _ _ l => textsOf l
  | .text s => s

/-- The texts of several nodes. -/
def textsOf : List Dom → Str
  | [] => []
  | d :: l => d.textOf ++ textsOf l
end

mutual
/-- The elements in document order, the order of `Html::select`: a node and what is below it. -/
def Dom.elements : Dom → List Dom
  | .el n a l => .el n a l :: elementsOf l
  | .text _ => []

/-- The elements of several nodes. -/
def elementsOf : List Dom → List Dom
  | [] => []
  | d :: l => d.elements ++ elementsOf l
end

/-- The elements below an element, the order of `ElementRef::select`. -/
def Dom.inside : Dom → List Dom
  | .el _ _ l => elementsOf l
  | .text _ => []

/-- The name of an element. -/
def Dom.name : Dom → Str
  | .el n _ _ => n
  | .text _ => []

/-- The attributes of an element. -/
def Dom.attrs : Dom → List (Str × Str)
  | .el _ a _ => a
  | .text _ => []

/-- The loop of `split_whitespace`, with the word that is being read. -/
def wordsFrom : Str → Str → List Str
  | cur, [] => if cur = [] then [] else [cur]
  | cur, c :: r =>
    if isWs c then (if cur = [] then wordsFrom [] r else cur :: wordsFrom [] r) else wordsFrom (cur ++ [c]) r

/-- `str::split_whitespace`. -/
def splitWhitespace (s : Str) : List Str := wordsFrom [] s

/-- `clean_text`, src/web2ppt/parser.rs 407-412. -/
def cleanText (d : Dom) : Str := trim (joinStr c!" " (splitWhitespace d.textOf))

/-! ### Title and description -/

/-- The first element that a selector finds. -/
def first (p : Dom → Bool) (doc : Dom) : Option Dom := doc.elements.find? p

/-- The selectors `meta[property='…']` and `meta[name='…']`. -/
def isMeta (key value : Str) (d : Dom) : Bool := d.name = c!"meta" && attr d.attrs key = some value

/-- A text that is not empty. -/
def filled (s : Str) : Option Str := if s = [] then none else some s

/-- `extract_title`, src/web2ppt/parser.rs 192-223. -/
def extractTitle (doc : Dom) : Str :=
  (((first (fun d => d.name = c!"title") doc).bind fun d => filled (trim d.textOf)).or
    (((first (fun d => d.name = c!"h1") doc).bind fun d => filled (trim d.textOf)).or
      ((first (isMeta c!"property" c!"og:title") doc).bind fun d => (attr d.attrs c!"content").map trim))).getD c!"Untitled"

/-- `extract_meta_description`, src/web2ppt/parser.rs 226-252. -/
def extractDescription (doc : Dom) : Option Str :=
  ((first (isMeta c!"name" c!"description") doc).bind fun d => (attr d.attrs c!"content").bind fun c => filled (trim c)).or
    ((first (isMeta c!"property" c!"og:description") doc).bind fun d =>
      (attr d.attrs c!"content").bind fun c => filled (trim c))

/-! ### Content -/

/-- `Web2PptConfig`, src/web2ppt/config.rs 5-28, the fields the parser uses; `links` has no effect
(src/web2ppt/parser.rs 380-391). -/
structure ParserConfig where
  images : Bool := true
  tables : Bool := true
  code : Bool := true
  links : Bool := true

/-- Blocks with their nesting levels, and the list of images. -/
structure Found where
  blocks : List (WebBlock × Nat) := []
  images : List (Str × Str) := []

/-- What is found first and what is found then. -/
def Found.append (a b : Found) : Found := ⟨a.blocks ++ b.blocks, a.images ++ b.images⟩

/-- One block of level 0. -/
def Found.block (k : WebKind) (text : Str) : Found := ⟨[(WebBlock.new k text, 0)], []⟩

/-- Elements that are skipped, src/web2ppt/parser.rs 302. -/
def skipTags : List Str :=
  [c!"script", c!"style", c!"noscript", c!"svg", c!"form", c!"button", c!"input", c!"select", c!"textarea", c!"iframe"]

/-- Classes that are skipped, src/web2ppt/parser.rs 311. -/
def skipClasses : List Str := [c!"advertisement", c!"ad-container", c!"social-share", c!"comment-section"]

/-- Elements whose children are not looked at, src/web2ppt/parser.rs 396; `pre`, `code` and `table` have returned before. -/
def leafTags : List Str :=
  [c!"p", c!"li", c!"pre", c!"code", c!"img", c!"table", c!"blockquote", c!"h1", c!"h2", c!"h3", c!"h4", c!"h5", c!"h6"]

/-- Is an element skipped? src/web2ppt/parser.rs 301-315. -/
def skipped (low : Str → Str) (name : Str) (attrs : List (Str × Str)) : Bool :=
  skipTags.contains name ||
    (attr attrs c!"class").any fun c => skipClasses.any fun s => containsStr s (lowerStr low c)

/-- The row of a table, src/web2ppt/parser.rs 420-427. -/
def rowOf (row : Dom) : List Str := (row.inside.filter fun d => d.name = c!"th" || d.name = c!"td").map cleanText

/-- The rows of a table, src/web2ppt/parser.rs 416-433. -/
def rowsOf (table : Dom) : List (List Str) :=
  ((table.inside.filter fun d => d.name = c!"tr").map rowOf).filter fun r => !r.isEmpty

/-- `extract_table`, src/web2ppt/parser.rs 415-441. -/
def extractTable (table : Dom) : Found :=
  if rowsOf table ≠ [] ∧ (rowsOf table).length ≤ 30 then .block (.table (rowsOf table)) [] else {}

/-- An image, src/web2ppt/parser.rs 360-373. -/
def imageOf (cfg : ParserConfig) (attrs : List (Str × Str)) : Found :=
  if cfg.images then
    match attr attrs c!"src" with
    | some src =>
      let alt := (attr attrs c!"alt").getD []
      if !startsWith c!"data:" src && !alt.isEmpty then ⟨[(WebBlock.new (.image src alt) [], 0)], [(src, alt)]⟩ else {}
    | none => {}
  else {}

/-- A heading, src/web2ppt/parser.rs 318-330. -/
def headingOf (k : WebKind) (d : Dom) : Found :=
  if cleanText d ≠ [] ∧ utf8Len (cleanText d) < 300 then .block k (cleanText d) else {}

/-- What an element itself gives, src/web2ppt/parser.rs 317-393. -/
def ownOf (cfg : ParserConfig) (depth : Nat) (d : Dom) : Found :=
  if d.name = c!"h1" then headingOf .title d
  else if d.name = c!"h2" then headingOf (.heading 2) d
  else if d.name = c!"h3" then headingOf (.heading 3) d
  else if d.name = c!"h4" then headingOf (.heading 4) d
  else if d.name = c!"h5" then headingOf (.heading 5) d
  else if d.name = c!"h6" then headingOf (.heading 6) d
  else if d.name = c!"p" then
    if 10 ≤ utf8Len (cleanText d) then .block .paragraph (cleanText d) else {}
  else if d.name = c!"li" then
    if cleanText d ≠ [] ∧ utf8Len (cleanText d) < 500 then ⟨[(WebBlock.new .listItem (cleanText d), depth)], []⟩ else {}
  else if d.name = c!"blockquote" then
    if cleanText d ≠ [] then .block .quote (cleanText d) else {}
  else if d.name = c!"pre" ∨ d.name = c!"code" then
    if cfg.code ∧ trim d.textOf ≠ [] ∧ utf8Len (trim d.textOf) ≤ 1000 then .block .code (trim d.textOf) else {}
  else if d.name = c!"img" then imageOf cfg d.attrs
  else if d.name = c!"table" then if cfg.tables then extractTable d else {}
  else {}

mutual
/-- `walk_element`, src/web2ppt/parser.rs 299-404. The depth is a `u8`; adding one to 255 is a panic. A text is no element
and is passed over (line 399). -/
def walkElement (low : Str → Str) (cfg : ParserConfig) (depth : Nat) : Dom → Option Found
  | .el n a l =>
    if skipped low n a then some {}
    else if leafTags.contains n then some (ownOf cfg depth (.el n a l))
    else (walkAll low cfg depth l).map fun f => (ownOf cfg depth (.el n a l)).append f
  | .text _ => some {}

/-- The loop over the children of an element of this depth, src/web2ppt/parser.rs 398-402. -/
def walkAll (low : Str → Str) (cfg : ParserConfig) (depth : Nat) : List Dom → Option Found
  | [] => some {}
  | .el n a c :: l =>
    if depth + 1 < 256 then
      (walkElement low cfg (depth + 1) (.el n a c)).bind fun f => (walkAll low cfg depth l).map fun g => f.append g
    else none
  | .text _ :: l => walkAll low cfg depth l
end

/-- A class selector. -/
def hasClass (c : Str) (d : Dom) : Bool := (attr d.attrs c!"class").any fun v => (splitWhitespace v).contains c

/-- An id selector. -/
def hasId (i : Str) (d : Dom) : Bool := attr d.attrs c!"id" = some i

/-- The selector `main article`. -/
def mainArticle (doc : Dom) : Option Dom :=
  ((doc.elements.filter fun d => d.name = c!"main").flatMap Dom.inside).find? fun d => d.name = c!"article"

/-- The places where the main content is looked for, src/web2ppt/parser.rs 257-273, each with the first element found. -/
def mainPlaces (doc : Dom) : List (Option Dom) :=
  [mainArticle doc, first (fun d => d.name = c!"article") doc, first (fun d => d.name = c!"main") doc,
   first (fun d => attr d.attrs c!"role" = some c!"main") doc]
  ++ [c!"content", c!"post-content", c!"article-content", c!"entry-content", c!"markdown-body", c!"prose"].map
      (fun c => first (hasClass c) doc)
  ++ [c!"content", c!"main", c!"article"].map (fun i => first (hasId i) doc)
  ++ [first (hasClass c!"article") doc, first (fun d => d.name = c!"body") doc]

/-- The main content, src/web2ppt/parser.rs 275-290. -/
def mainElement (doc : Dom) : Option Dom :=
  ((mainPlaces doc).filterMap id).find? fun d => 100 < utf8Len d.textOf

/-- A page that was read. -/
structure ParsedPage where
  page : WebPage
  levels : List Nat
  images : List (Str × Str)

/-- `parse`, src/web2ppt/parser.rs 171-189; `Except.error` is `NoContent`. -/
def parsePage (low : Str → Str) (cfg : ParserConfig) (doc : Dom) (url : Str) : Option (Except Unit ParsedPage) :=
  match mainElement doc with
  | none => some (.error ())
  | some m =>
    (walkElement low cfg 0 m).map fun f =>
      if f.blocks.isEmpty then .error ()
      else .ok ⟨⟨extractTitle doc, url, extractDescription doc, f.blocks.map (·.1)⟩, f.blocks.map (·.2), f.images⟩

end PptRs.Web
