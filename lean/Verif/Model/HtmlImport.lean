import Verif.Model.TextConv
import Verif.Model.Tables
import Verif.Model.Repair

/-!
# HTML import

`uni` says which characters outside ASCII are alphanumeric, `low` lower-cases texts with such characters, `load`
opens an image. Text formats taken from `style` attributes are left out except for the crash they can cause;
`none` is a panic.
-/

namespace PptRs

/-- src/import/html.rs 118-122. -/
inductive HtmlEvent where
  | openTag (name : Str) (attrs : List (Str × Str))
  | closeTag (name : Str)
  | text (s : Str)
deriving DecidableEq, Repr

/-- Things that depend on Unicode tables and on the outside world. -/
structure HtmlEnv where
  uni : Char → Bool
  low : Str → Str
  load : Str → Option Bytes

/-- `to_lowercase`. -/
def lowerStr (low : Str → Str) (s : Str) : Str :=
  if s.all fun c => c.toNat < 128 then s.map Char.toLower else low s

/-! ### Tokens -/

/-- The white space tested for by the tokenizer, src/import/html.rs 460 and others. -/
def htmlWs (c : Char) : Bool := c = ' ' || c = '\t' || c = '\n' || c = '\r'

/-- src/import/html.rs 484. -/
def htmlNameChar (uni : Char → Bool) (c : Char) : Bool :=
  Repair.isAlnum uni c || c = '-' || c = ':' || c = '_' || c = '.'

/-- The text after a comment, src/import/html.rs 438-444. -/
def skipComment : Str → Str
  | [] => []
  | c :: r => match stripPrefix? c!"-->" (c :: r) with
    | some t => t
    | none => skipComment r

/-- The text after the next `>`. -/
def afterGt (s : Str) : Str := (s.dropWhile fun c => c != '>').drop 1

/-- src/import/html.rs 508. -/
def attrNameEnd (c : Char) : Bool := c = '=' || c = '>' || htmlWs c || c = '/'

/-- src/import/html.rs 534. -/
def unquotedEnd (c : Char) : Bool := c = '>' || htmlWs c || c = '/'

/-- The value of an attribute and what follows, src/import/html.rs 523-539. -/
def readAttrValue : Str → Str × Str
  | [] => ([], [])
  | q :: r =>
    if q = '"' ∨ q = '\'' then (r.takeWhile fun c => c != q, (r.dropWhile fun c => c != q).drop 1)
    else ((q :: r).takeWhile fun c => !unquotedEnd c, (q :: r).dropWhile fun c => !unquotedEnd c)

/-- One attribute (as written) and what follows, src/import/html.rs 507-540. -/
def readAttr (s : Str) : (Str × Str) × Str :=
  match (s.dropWhile fun c => !attrNameEnd c).dropWhile htmlWs with
  | '=' :: r => (((s.takeWhile fun c => !attrNameEnd c), (readAttrValue (r.dropWhile htmlWs)).1),
      (readAttrValue (r.dropWhile htmlWs)).2)
  | r => (((s.takeWhile fun c => !attrNameEnd c), []), r)

/-- The attributes and what follows, starting with the `>`, src/import/html.rs 492-543. -/
def attrLoop (low : Str → Str) : Nat → Str → List (Str × Str) × Str
  | 0, s => ([], s)
  | fuel + 1, s =>
    match s.dropWhile htmlWs with
    | [] => ([], [])
    | c :: r =>
      if c = '>' then ([], c :: r)
      else if c = '/' then attrLoop low fuel r
      else
        ((lowerStr low (readAttr (c :: r)).1.1, decodeEntities (readAttr (c :: r)).1.2) ::
            (attrLoop low fuel (readAttr (c :: r)).2).1,
          (attrLoop low fuel (readAttr (c :: r)).2).2)

/-- The event of an opening tag, src/import/html.rs 483-552, on the text after `<` without leading white space, and
what follows. -/
def readOpenTag (env : HtmlEnv) (s : Str) : List HtmlEvent × Str :=
  let name := lowerStr env.low (s.takeWhile (htmlNameChar env.uni))
  let a := attrLoop env.low (s.length + 1) (s.dropWhile (htmlNameChar env.uni))
  (if name = [] then [] else [.openTag name a.1], a.2.drop 1)

/-- The event of a closing tag, src/import/html.rs 456-477, on the text after `</`. -/
def closeEvents (env : HtmlEnv) (s : Str) : List HtmlEvent :=
  let name := ((s.dropWhile htmlWs).takeWhile fun c => c != '>').filter (htmlNameChar env.uni)
  if name = [] then [] else [.closeTag (lowerStr env.low name)]

/-- The event of a text, src/import/html.rs 560-563. -/
def textEvents (s : Str) : List HtmlEvent := if trim s = [] then [] else [.text (decodeEntities s)]

/-- src/import/html.rs 430-566. -/
def tokenLoop (env : HtmlEnv) : Nat → Str → List HtmlEvent
  | 0, _ => []
  | _ + 1, [] => []
  | fuel + 1, c :: r =>
    if c = '<' then
      match r with
      | [] => []
      | d :: r' =>
        match stripPrefix? c!"!--" (d :: r') with
        | some t => tokenLoop env fuel (skipComment t)
        | none =>
          if d = '!' then tokenLoop env fuel (afterGt r')
          else if d = '/' then closeEvents env r' ++ tokenLoop env fuel (afterGt (r'.dropWhile htmlWs))
          else
            (readOpenTag env ((d :: r').dropWhile htmlWs)).1 ++
              tokenLoop env fuel (readOpenTag env ((d :: r').dropWhile htmlWs)).2
    else
      textEvents ((c :: r).takeWhile fun c => c != '<') ++
        tokenLoop env fuel ((c :: r).dropWhile fun c => c != '<')

/-- `tokenize_html`, src/import/html.rs 423-569. -/
def tokenizeHtml (env : HtmlEnv) (s : Str) : List HtmlEvent := tokenLoop env (s.length + 1) s

/-! ### Style attributes -/

/-- Whether `parse_css_color` panics, src/import/html.rs 226-252: only the slice of line 232 can. -/
def cssColorPanics (value : Str) : Bool :=
  match stripPrefix? c!"#" (trim value) with
  | some hex => utf8Len hex = 8 && (byteSlice hex 0 6).isNone
  | none => false

/-- Whether one declaration makes `InlineStyle::parse` panic, src/import/html.rs 301-310. -/
def declPanics (low : Str → Str) (decl : Str) : Bool :=
  match splitOnce? c!":" (trim decl) with
  | some (prop, value) =>
    (lowerStr low (trim prop) = c!"color" || lowerStr low (trim prop) = c!"background-color") && cssColorPanics (trim value)
  | none => false

/-- `InlineStyle::parse`, src/import/html.rs 299-335. -/
def stylePanics (low : Str → Str) (style : Str) : Bool := (splitChar ';' style).any (declPanics low)

/-! ### Slides -/

/-- src/import/html.rs 46-57. -/
structure HtmlOptions where
  maxSlides : Nat
  maxBullets : Nat
  includeCode : Bool
  includeTables : Bool
  includeImages : Bool
deriving DecidableEq, Repr

/-- What the importer sets of a slide. -/
structure HtmlSlide where
  title : Str
  content : List Str := []
  bullets : List Str := []
  table : Option TextTable := none
  code : List Str := []
  notes : Option Str := none
  images : List Bytes := []
deriving DecidableEq, Repr

/-- `HtmlSlideParser`, src/import/html.rs 582-602. Left out: the style stack and the two fields that are written
but never read (`italic`, `current_href`; `in_list` too). The tag stack has its top first. -/
structure HtmlState where
  slides : List HtmlSlide := []
  current : Option HtmlSlide := none
  buffer : Str := []
  stack : List Str := []
  inTable : Bool := false
  inCode : Bool := false
  inQuote : Bool := false
  items : List Str := []
  rows : List (List Str) := []
  row : List Str := []
  cell : Str := []
  code : Str := []
  quote : Str := []
  title : Option Str := none
deriving DecidableEq, Repr

/-- src/import/html.rs 577-580. -/
def skipTags : List Str :=
  [c!"script", c!"style", c!"noscript", c!"nav", c!"form", c!"svg", c!"canvas", c!"iframe", c!"title"]

/-- `is_inside_skip_tag`, src/import/html.rs 665-667. -/
def HtmlState.inSkip (st : HtmlState) : Bool := st.stack.any fun t => skipTags.contains t

/-- A bullet and its text, src/import/html.rs 875-880. -/
def HtmlSlide.push (s : HtmlSlide) (t : Str) : HtmlSlide :=
  { s with content := s.content ++ [t], bullets := s.bullets ++ [t] }

/-- src/import/html.rs 896-903. -/
def HtmlSlide.pushLimited (max : Nat) (s : HtmlSlide) (t : Str) : HtmlSlide :=
  if s.content.length < max then s.push t else s

/-- `add_formatted_text`, src/import/html.rs 872-891. -/
def HtmlState.addFormatted (st : HtmlState) (t : Str) : HtmlState :=
  { st with current := some ((st.current.getD { title := c!"Slide" }).push t) }

/-- `add_paragraph`, src/import/html.rs 893-915. -/
def HtmlState.addParagraph (o : HtmlOptions) (st : HtmlState) (t : Str) : HtmlState :=
  match st.current with
  | some s => { st with current := some (s.pushLimited o.maxBullets t) }
  | none => { st with current := some (HtmlSlide.push { title := st.title.getD c!"Overview" } t) }

/-- The text buffer becomes a paragraph: `flush_text_buffer`, src/import/html.rs 917-923 (and 790-793, 796-799). -/
def HtmlState.flushText (o : HtmlOptions) (st : HtmlState) : HtmlState :=
  let st' := { st with buffer := [] }
  if trim st.buffer = [] then st' else st'.addParagraph o (trim st.buffer)

/-- `flush_list_items`, src/import/html.rs 925-957. -/
def HtmlState.flushItems (o : HtmlOptions) (st : HtmlState) : HtmlState :=
  if st.items = [] then st
  else { st with
    items := [],
    current := some (st.items.foldl (HtmlSlide.pushLimited o.maxBullets)
      (st.current.getD { title := st.title.getD c!"Key Points" })) }

/-- `flush_table`, src/import/html.rs 959-976. -/
def HtmlState.flushTable (o : HtmlOptions) (st : HtmlState) : Option HtmlState :=
  if !o.includeTables || st.rows.isEmpty then some st
  else (tableFromStringRows st.rows).map fun t =>
    { st with rows := [], current := some { (st.current.getD { title := c!"Data Table" }) with table := some t } }

/-- `flush_code_block`, src/import/html.rs 978-993. -/
def HtmlState.flushCode (o : HtmlOptions) (st : HtmlState) : HtmlState :=
  if !o.includeCode || st.code.isEmpty then st
  else
    let s := st.current.getD { title := c!"Code" }
    { st with code := [], current := some { s with code := s.code ++ [trim st.code] } }

/-- `flush_blockquote`, src/import/html.rs 995-1004. -/
def HtmlState.flushQuote (st : HtmlState) : HtmlState :=
  let st' := { st with quote := [] }
  if trim st.quote = [] then st'
  else { st' with current := st.current.map fun s => { s with notes := some (trim st.quote) } }

/-- `finalize_current_slide`, src/import/html.rs 1006-1012. -/
def HtmlState.finalize (o : HtmlOptions) (st : HtmlState) : HtmlState :=
  let st := (st.flushText o).flushItems o
  { st with slides := st.slides ++ st.current.toList, current := none }

/-- Value of an attribute, as in src/import/html.rs 720. -/
def attrValue? (attrs : List (Str × Str)) (key : Str) : Option Str := (attrs.find? fun a => a.1 = key).map (·.2)

/-- An image, src/import/html.rs 718-740. -/
def HtmlState.image (env : HtmlEnv) (o : HtmlOptions) (st : HtmlState) (attrs : List (Str × Str)) : HtmlState :=
  let alt := (attrValue? attrs c!"alt").getD []
  let src := (attrValue? attrs c!"src").getD []
  if !o.includeImages || src.isEmpty then st
  else
    match env.load src with
    | some img =>
      let s := st.current.getD { title := c!"Image" }
      { st with current := some { s with images := s.images ++ [img] } }
    | none => st.addParagraph o (c!"[Image: " ++ (if alt = [] then src else alt) ++ c!"]")

/-- src/import/html.rs 417-420. -/
def voidTags : List Str :=
  [c!"area", c!"base", c!"br", c!"col", c!"embed", c!"hr", c!"img", c!"input", c!"link", c!"meta", c!"param",
   c!"source", c!"track", c!"wbr"]

/-- The headings below the first level. -/
def subHeadings : List Str := [c!"h2", c!"h3", c!"h4", c!"h5", c!"h6"]

/-- Blocks whose text is a paragraph, src/import/html.rs 789 and 795. -/
def paragraphTags : List Str := [c!"p", c!"div", c!"article", c!"section", c!"main"]

/-- `text_buffer.push_str`. -/
def HtmlState.mark (st : HtmlState) (m : Str) : HtmlState := { st with buffer := st.buffer ++ m }

/-- What an opening tag does besides its style, src/import/html.rs 685-757. -/
def HtmlState.openBody (env : HtmlEnv) (o : HtmlOptions) (st : HtmlState) (name : Str) (attrs : List (Str × Str)) :
    HtmlState :=
  if name = c!"h1" ∨ name = c!"hr" then (st.flushText o).finalize o
  else if name ∈ subHeadings then st.flushText o
  else if name = c!"pre" then { st with inCode := true, code := [] }
  else if name = c!"table" then { st with inTable := true, rows := [] }
  else if name = c!"blockquote" then { st with inQuote := true, quote := [] }
  else if name = c!"ul" ∨ name = c!"ol" then { st with items := [] }
  else if name = c!"strong" ∨ name = c!"b" then st.mark c!"**"
  else if name = c!"em" ∨ name = c!"i" then st.mark c!"*"
  else if name = c!"img" then st.image env o attrs
  else if name = c!"br" then st.mark c!"\n"
  else st

/-- `handle_open_tag`, src/import/html.rs 669-758, after the tag is put on the stack (line 638). -/
def HtmlState.openTag (env : HtmlEnv) (o : HtmlOptions) (st : HtmlState) (name : Str) (attrs : List (Str × Str)) :
    Option HtmlState :=
  let st := { st with stack := name :: st.stack }
  if st.inSkip then some st
  else if !voidTags.contains name && stylePanics env.low ((attrValue? attrs c!"style").getD []) then none
  else some (st.openBody env o name attrs)

/-- src/import/html.rs 767-781. -/
def HtmlState.closeTitle (st : HtmlState) : HtmlState :=
  { st with
    buffer := [],
    title := if st.title = none ∧ trim st.buffer ≠ [] then some (trim st.buffer) else st.title,
    current := some { title := if trim st.buffer = [] then c!"Slide" else trim st.buffer } }

/-- src/import/html.rs 784-787. -/
def HtmlState.closeSub (st : HtmlState) : HtmlState :=
  if trim st.buffer = [] then { st with buffer := [] }
  else HtmlState.addFormatted { st with buffer := [] } (c!"**" ++ trim st.buffer ++ c!"**")

/-- src/import/html.rs 802-806. -/
def HtmlState.closeItem (st : HtmlState) : HtmlState :=
  { st with buffer := [], items := if trim st.buffer = [] then st.items else st.items ++ [trim st.buffer] }

/-- src/import/html.rs 825-826. -/
def HtmlState.closeCell (st : HtmlState) : HtmlState := { st with cell := [], row := st.row ++ [trim st.cell] }

/-- src/import/html.rs 829-832. -/
def HtmlState.closeRow (st : HtmlState) : HtmlState :=
  if st.row = [] then st else { st with rows := st.rows ++ [st.row], row := [] }

/-- What a closing tag does, src/import/html.rs 765-848. -/
def HtmlState.closeBody (o : HtmlOptions) (st : HtmlState) (name : Str) : Option HtmlState :=
  if name = c!"h1" then some st.closeTitle
  else if name ∈ subHeadings then some st.closeSub
  else if name ∈ paragraphTags then some (st.flushText o)
  else if name = c!"li" then some st.closeItem
  else if name = c!"ul" ∨ name = c!"ol" then some (st.flushItems o)
  else if name = c!"pre" then some (HtmlState.flushCode o { st with inCode := false })
  else if name = c!"table" then HtmlState.flushTable o { st with inTable := false }
  else if name = c!"blockquote" then some (HtmlState.flushQuote { st with inQuote := false })
  else if name = c!"th" ∨ name = c!"td" then some st.closeCell
  else if name = c!"tr" then some st.closeRow
  else if name = c!"strong" ∨ name = c!"b" then some (st.mark c!"**")
  else if name = c!"em" ∨ name = c!"i" then some (st.mark c!"*")
  else some st

/-- `handle_close_tag`, src/import/html.rs 760-854, and the pop of line 643. -/
def HtmlState.closeTag (o : HtmlOptions) (st : HtmlState) (name : Str) : Option HtmlState :=
  (if st.inSkip then some st else st.closeBody o name).map fun st => { st with stack := st.stack.drop 1 }

/-- `handle_text`, src/import/html.rs 856-870. -/
def HtmlState.addText (st : HtmlState) (t : Str) : HtmlState :=
  if st.inSkip then st
  else if st.inCode then { st with code := st.code ++ t }
  else if st.inTable then { st with cell := st.cell ++ t }
  else if st.inQuote then { st with quote := st.quote ++ t }
  else { st with buffer := st.buffer ++ t }

/-- src/import/html.rs 635-648. -/
def HtmlState.step (env : HtmlEnv) (o : HtmlOptions) (st : HtmlState) : HtmlEvent → Option HtmlState
  | .openTag name attrs => st.openTag env o name attrs
  | .closeTag name => st.closeTag o name
  | .text t => some (st.addText t)

/-- All events, src/import/html.rs 635-648. -/
def HtmlState.run (env : HtmlEnv) (o : HtmlOptions) : HtmlState → List HtmlEvent → Option HtmlState
  | st, [] => some st
  | st, e :: es => (st.step env o e).bind fun st => st.run env o es

/-- src/import/html.rs 650-662; `error` is the message "No slide content found in HTML". -/
def HtmlState.finish (o : HtmlOptions) (st : HtmlState) : Except Unit (List HtmlSlide) :=
  let slides := (st.finalize o).slides
  if slides = [] then .error () else .ok (slides.take o.maxSlides)

/-- `HtmlSlideParser::parse`, src/import/html.rs 634-663. -/
def parseEvents (env : HtmlEnv) (o : HtmlOptions) (es : List HtmlEvent) : Option (Except Unit (List HtmlSlide)) :=
  (HtmlState.run env o {} es).map (HtmlState.finish o)

/-- `Html2Ppt::parse`, src/import/html.rs 1087-1090. -/
def parseHtml (env : HtmlEnv) (o : HtmlOptions) (html : Str) : Option (Except Unit (List HtmlSlide)) :=
  parseEvents env o (tokenizeHtml env html)

end PptRs
