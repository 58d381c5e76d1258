import Verif.Model.HtmlImport
import Verif.Model.Mermaid
import Verif.Model.Chains
import Verif.Model.Float
import Verif.Model.Color

/-!
# Styles of HTML elements

The model of `Verif.Model.HtmlImport` with the formats taken from `style` attributes. Upper case is that of ASCII. `none` of
the outer option is a panic.
-/

namespace PptRs.Html

open PptRs PptRs.Chains

/-! ### Colours and sizes -/

/-- `css_named_color`, src/import/html.rs 175-223. -/
def namedColors : List (Str × Str) :=
  [(c!"red", c!"FF0000"), (c!"blue", c!"0000FF"), (c!"green", c!"008000"), (c!"yellow", c!"FFFF00"),
   (c!"white", c!"FFFFFF"), (c!"black", c!"000000"), (c!"gray", c!"808080"), (c!"grey", c!"808080"),
   (c!"silver", c!"C0C0C0"), (c!"maroon", c!"800000"), (c!"purple", c!"800080"), (c!"fuchsia", c!"FF00FF"),
   (c!"lime", c!"00FF00"), (c!"olive", c!"808000"), (c!"navy", c!"000080"), (c!"teal", c!"008080"),
   (c!"aqua", c!"00FFFF"), (c!"orange", c!"FFA500"), (c!"pink", c!"FFC0CB"), (c!"coral", c!"FF7F50"),
   (c!"tomato", c!"FF6347"), (c!"darkred", c!"8B0000"), (c!"darkblue", c!"00008B"), (c!"darkgreen", c!"006400"),
   (c!"darkgray", c!"A9A9A9"), (c!"darkgrey", c!"A9A9A9"), (c!"lightgray", c!"D3D3D3"), (c!"lightgrey", c!"D3D3D3"),
   (c!"darkorange", c!"FF8C00"), (c!"brown", c!"A52A2A"), (c!"crimson", c!"DC143C"), (c!"gold", c!"FFD700"),
   (c!"goldenrod", c!"DAA520"), (c!"indigo", c!"4B0082"), (c!"salmon", c!"FA8072"), (c!"chocolate", c!"D2691E"),
   (c!"steelblue", c!"4682B4"), (c!"violet", c!"EE82EE"), (c!"orchid", c!"DA70D6"), (c!"plum", c!"DDA0DD"),
   (c!"wheat", c!"F5DEB3"), (c!"deeppink", c!"FF1493"), (c!"hotpink", c!"FF69B4"), (c!"royalblue", c!"4169E1"),
   (c!"skyblue", c!"87CEEB"), (c!"seagreen", c!"2E8B57"), (c!"forestgreen", c!"228B22")]

/-- `parse::<u8>()`. -/
def parseU8? (s : Str) : Option UInt8 := (parseU32? s).bind fun n => if n < 256 then some (UInt8.ofNat n) else none

/-- The three numbers of a colour, src/import/html.rs 238-248, on the text after `rgb(` or `rgba(`. -/
def rgbColor (rgb : Str) : Option Str :=
  (rsplitOnceChar? ')' rgb).bind fun p =>
    match splitChar ',' p.1 with
    | r :: g :: b :: _ =>
      match parseU8? (trim r), parseU8? (trim g), parseU8? (trim b) with
      | some r, some g, some b => some (hex2 r ++ hex2 g ++ hex2 b)
      | _, _, _ => none
    | _ => none

/-- The digits of a colour, src/import/html.rs 229-235. -/
def hashColor (hex : Str) : Option (Option Str) :=
  if utf8Len hex = 3 then some (some ((hex.flatMap fun c => [c, c]).map Char.toUpper))
  else if utf8Len hex = 6 then some (some (hex.map Char.toUpper))
  else if utf8Len hex = 8 then (byteSlice hex 0 6).map fun h => some (h.map Char.toUpper)
  else some none

/-- `rgb(…)` and `rgba(…)`, src/import/html.rs 238-250. -/
def rgbValue (value : Str) : Option Str :=
  ((stripPrefix? c!"rgba(" value).or (stripPrefix? c!"rgb(" value)).bind rgbColor

/-- A colour without `#`, src/import/html.rs 236-251. -/
def otherColor (value : Str) : Option Str :=
  ((namedColors.find? fun p => p.1 = value).map (·.2)).or (rgbValue value)

/-- `parse_css_color`, src/import/html.rs 226-252. -/
def parseCssColor (value : Str) : Option (Option Str) :=
  match stripPrefix? c!"#" (trim value) with
  | some hex => hashColor hex
  | none => some (otherColor (trim value))

/-- The digits at the start of a text and what follows. -/
def digits (s : Str) : Str × Str := (s.takeWhile isDig, s.dropWhile isDig)

/-- A sign at the start of a text. -/
def sign : Str → Bool × Str
  | '+' :: t => (false, t)
  | '-' :: t => (true, t)
  | t => (false, t)

/-- A decimal number as a floating point number. -/
def decimal (neg : Bool) (whole frac : Str) (e : Int) : Fl.Val :=
  let q : Rat := (Nat.ofDigitChars 10 (whole ++ frac) 0 : Rat) * (10 : Rat) ^ (e - frac.length)
  Fl.mk Fl.b64 (if neg then -q else q)

/-- `parse::<f64>()` of the Rust library: an optional sign, digits with an optional point, an optional exponent; also
`inf`, `infinity` and `nan` in any case. -/
def parseF64? (s : Str) : Option Fl.Val :=
  let (neg, s) := sign s
  let low := s.map Char.toLower
  if low = c!"inf" ∨ low = c!"infinity" then some (.inf neg)
  else if low = c!"nan" then some .nan
  else
    let (whole, s) := digits s
    let (frac, s) := match s with
      | '.' :: s => digits s
      | s => ([], s)
    if whole = [] ∧ frac = [] then none
    else match s with
      | [] => some (decimal neg whole frac 0)
      | c :: s =>
        if c = 'e' ∨ c = 'E' then
          let (eneg, s) := sign s
          if s ≠ [] ∧ s.all isDig then
            some (decimal neg whole frac (if eneg then -(Nat.ofDigitChars 10 s 0 : Int) else Nat.ofDigitChars 10 s 0))
          else none
        else none

/-- `f64::round`: halves go away from zero. -/
def roundAway : Fl.Val → Fl.Val
  | .fin q => .fin (if q < 0 then -⌊-q + 1 / 2⌋ else ⌊q + 1 / 2⌋ : Int)
  | v => v

/-- `parse_font_size`, src/import/html.rs 255-266. -/
def parseFontSize (value : Str) : Option Nat :=
  let value := trim value
  match stripSuffix? c!"px" value with
  | some px => (parseF64? (trim px)).map fun v =>
      Fl.toU Fl.maxU32 (roundAway (Fl.div Fl.b64 v (Fl.mk Fl.b64 (1333 / 1000))))
  | none =>
    match stripSuffix? c!"pt" value with
    | some pt => (parseF64? (trim pt)).map fun v => Fl.toU Fl.maxU32 (roundAway v)
    | none => parseU32? value

/-- `is_font_weight_bold`, src/import/html.rs 269-271. -/
def weightBold (low : Str → Str) (v : Str) : Bool :=
  [c!"bold", c!"bolder", c!"700", c!"800", c!"900"].contains (lowerStr low (trim v))

/-- `is_font_style_italic`, src/import/html.rs 274-276. -/
def styleItalic (low : Str → Str) (v : Str) : Bool := [c!"italic", c!"oblique"].contains (lowerStr low (trim v))

/-! ### Styles -/

/-- `InlineStyle`, src/import/html.rs 279-297. -/
structure InlineStyle where
  color : Option Str := none
  backgroundColor : Option Str := none
  fontSize : Option Nat := none
  fontWeight : Option Str := none
  fontStyle : Option Str := none
  textDecoration : Option Str := none
  fontFamily : Option Str := none
  textAlign : Option Str := none
  marginTop : Option Str := none
  marginBottom : Option Str := none
  marginLeft : Option Str := none
  marginRight : Option Str := none
  padding : Option Str := none
  border : Option Str := none
  lineHeight : Option Str := none
  letterSpacing : Option Str := none
deriving DecidableEq, Repr

/-- The name and value of a declaration, src/import/html.rs 303-309. -/
def declOf (low : Str → Str) (decl : Str) : Option (Str × Str) :=
  (splitOnce? c!":" (trim decl)).map fun p => (lowerStr low (trim p.1), trim p.2)

/-- One declaration, src/import/html.rs 310-330. -/
def setStyle (s : InlineStyle) (prop value : Str) : Option InlineStyle :=
  if prop = c!"color" then (parseCssColor value).map fun c => { s with color := c }
  else if prop = c!"background-color" then (parseCssColor value).map fun c => { s with backgroundColor := c }
  else if prop = c!"font-size" then some { s with fontSize := parseFontSize value }
  else if prop = c!"font-weight" then some { s with fontWeight := some value }
  else if prop = c!"font-style" then some { s with fontStyle := some value }
  else if prop = c!"text-decoration" then some { s with textDecoration := some value }
  else if prop = c!"font-family" then some { s with fontFamily := some (Mermaid.trimChar '\'' (Mermaid.trimChar '"' value)) }
  else if prop = c!"text-align" then some { s with textAlign := some value }
  else if prop = c!"margin-top" then some { s with marginTop := some value }
  else if prop = c!"margin-bottom" then some { s with marginBottom := some value }
  else if prop = c!"margin-left" then some { s with marginLeft := some value }
  else if prop = c!"margin-right" then some { s with marginRight := some value }
  else if prop = c!"padding" then some { s with padding := some value }
  else if prop = c!"border" then some { s with border := some value }
  else if prop = c!"line-height" then some { s with lineHeight := some value }
  else if prop = c!"letter-spacing" then some { s with letterSpacing := some value }
  else some s

/-- One round of the loop, src/import/html.rs 303-331. An empty declaration has no `:`. -/
def applyDecl (low : Str → Str) (s : InlineStyle) (decl : Str) : Option InlineStyle :=
  match declOf low decl with
  | some p => setStyle s p.1 p.2
  | none => some s

/-- `InlineStyle::parse`, src/import/html.rs 300-334. -/
def parseStyle (low : Str → Str) (style : Str) : Option InlineStyle :=
  (splitChar ';' style).foldlM (applyDecl low) {}

/-- `InlineStyle::merge`, src/import/html.rs 337-356. -/
def InlineStyle.merge (s o : InlineStyle) : InlineStyle where
  color := o.color.or s.color
  backgroundColor := o.backgroundColor.or s.backgroundColor
  fontSize := o.fontSize.or s.fontSize
  fontWeight := o.fontWeight.or s.fontWeight
  fontStyle := o.fontStyle.or s.fontStyle
  textDecoration := o.textDecoration.or s.textDecoration
  fontFamily := o.fontFamily.or s.fontFamily
  textAlign := o.textAlign.or s.textAlign
  marginTop := o.marginTop.or s.marginTop
  marginBottom := o.marginBottom.or s.marginBottom
  marginLeft := o.marginLeft.or s.marginLeft
  marginRight := o.marginRight.or s.marginRight
  padding := o.padding.or s.padding
  border := o.border.or s.border
  lineHeight := o.lineHeight.or s.lineHeight
  letterSpacing := o.letterSpacing.or s.letterSpacing

/-- `InlineStyle::is_empty`, src/import/html.rs 359-376. -/
def InlineStyle.isEmpty (s : InlineStyle) : Bool :=
  s.color.isNone && s.backgroundColor.isNone && s.fontSize.isNone && s.fontWeight.isNone && s.fontStyle.isNone &&
  s.textDecoration.isNone && s.fontFamily.isNone && s.textAlign.isNone && s.marginTop.isNone && s.marginBottom.isNone &&
  s.marginLeft.isNone && s.marginRight.isNone && s.padding.isNone && s.border.isNone && s.lineHeight.isNone &&
  s.letterSpacing.isNone

/-- The calls made by `to_bullet_format`, src/import/html.rs 383-411. -/
def InlineStyle.calls (low : Str → Str) (s : InlineStyle) : List FormatCall :=
  s.color.toList.map .color ++ s.backgroundColor.toList.map .highlight ++ s.fontSize.toList.map .fontSize ++
  (if s.fontWeight.any (weightBold low) then [.bold] else []) ++
  (if s.fontStyle.any (styleItalic low) then [.italic] else []) ++
  (if s.textDecoration.any (containsStr c!"underline") then [.underline] else []) ++
  (if s.textDecoration.any (containsStr c!"line-through") then [.strikethrough] else []) ++
  s.fontFamily.toList.map .fontFamily

/-- `InlineStyle::to_bullet_format`, src/import/html.rs 379-413. -/
def InlineStyle.toFormat (low : Str → Str) (s : InlineStyle) : Option BulletTextFormat :=
  if s.isEmpty then none else some ((s.calls low).foldl FormatCall.run {})

/-! ### Slides with formats -/

/-- A slide with the settings of its title and the formats of its bullets. -/
structure StyledSlide where
  text : HtmlSlide
  titleColor : Option Str := none
  titleSize : Option Nat := some 44
  titleBold : Bool := true
  titleItalic : Bool := false
  titleUnderline : Bool := false
  formats : List (Option BulletTextFormat) := []

/-- `HtmlSlideParser`, src/import/html.rs 582-602. The slides, the current slide and the list items are in the fields of
that name, everything else is in `base`. The style stack has its top first. -/
structure StyledState where
  base : HtmlState := {}
  slides : List StyledSlide := []
  current : Option StyledSlide := none
  items : List (Str × Option BulletTextFormat) := []
  styles : List InlineStyle := []

/-- The same without formats. -/
def StyledState.erase (st : StyledState) : HtmlState :=
  { st.base with slides := st.slides.map (·.text), current := st.current.map (·.text), items := st.items.map (·.1) }

variable (env : HtmlEnv) (o : HtmlOptions)

/-- The format of the active style, src/import/html.rs 630-632 and 873. -/
def StyledState.format (st : StyledState) : Option BulletTextFormat := st.styles.head?.bind (·.toFormat env.low)

/-- A bullet with its format, src/import/html.rs 875-880. -/
def StyledSlide.push (s : StyledSlide) (t : Str) (f : Option BulletTextFormat) : StyledSlide :=
  { s with text := s.text.push t, formats := s.formats ++ [f] }

/-- src/import/html.rs 896-903. -/
def StyledSlide.pushLimited (max : Nat) (s : StyledSlide) (p : Str × Option BulletTextFormat) : StyledSlide :=
  if s.text.content.length < max then s.push p.1 p.2 else s

/-- `add_formatted_text`, src/import/html.rs 872-891. -/
def StyledState.addFormatted (st : StyledState) (t : Str) : StyledState :=
  { st with current := some ((st.current.getD { text := { title := c!"Slide" } }).push t (st.format env)) }

/-- `add_paragraph`, src/import/html.rs 893-915. -/
def StyledState.addParagraph (st : StyledState) (t : Str) : StyledState :=
  match st.current with
  | some s => { st with current := some (s.pushLimited o.maxBullets (t, st.format env)) }
  | none => { st with current := some (StyledSlide.push { text := { title := st.base.title.getD c!"Overview" } } t
      (st.format env)) }

/-- Another text buffer. -/
def StyledState.withBuffer (st : StyledState) (b : Str) : StyledState := { st with base := { st.base with buffer := b } }

/-- `flush_text_buffer`, src/import/html.rs 917-923 (and 790-793, 796-799). -/
def StyledState.flushText (st : StyledState) : StyledState :=
  if trim st.base.buffer = [] then st.withBuffer []
  else (st.withBuffer []).addParagraph env o (trim st.base.buffer)

/-- `flush_list_items`, src/import/html.rs 925-957. -/
def StyledState.flushItems (st : StyledState) : StyledState :=
  if st.items = [] then st
  else { st with
    items := [],
    current := some (st.items.foldl (StyledSlide.pushLimited o.maxBullets)
      (st.current.getD { text := { title := st.base.title.getD c!"Key Points" } })) }

/-- A slide whose text is changed. -/
def StyledSlide.mapText (f : HtmlSlide → HtmlSlide) (s : StyledSlide) : StyledSlide := { s with text := f s.text }

/-- `flush_table`, src/import/html.rs 959-976. -/
def StyledState.flushTable (st : StyledState) : Option StyledState :=
  if !o.includeTables || st.base.rows.isEmpty then some st
  else (tableFromStringRows st.base.rows).map fun t =>
    { st with
      base := { st.base with rows := [] },
      current := some ((st.current.getD { text := { title := c!"Data Table" } }).mapText fun s => { s with table := some t }) }

/-- `flush_code_block`, src/import/html.rs 978-993. -/
def StyledState.flushCode (st : StyledState) : StyledState :=
  if !o.includeCode || st.base.code.isEmpty then st
  else { st with
    base := { st.base with code := [] },
    current := some ((st.current.getD { text := { title := c!"Code" } }).mapText fun s =>
      { s with code := s.code ++ [trim st.base.code] }) }

/-- `flush_blockquote`, src/import/html.rs 995-1004. -/
def StyledState.flushQuote (st : StyledState) : StyledState :=
  let st' := { st with base := { st.base with quote := [] } }
  if trim st.base.quote = [] then st'
  else { st' with current := st.current.map (StyledSlide.mapText fun s => { s with notes := some (trim st.base.quote) }) }

/-- `finalize_current_slide`, src/import/html.rs 1006-1012. -/
def StyledState.finalize (st : StyledState) : StyledState :=
  let st := (st.flushText env o).flushItems o
  { st with slides := st.slides ++ st.current.toList, current := none }

/-- An image, src/import/html.rs 718-740. -/
def StyledState.image (st : StyledState) (attrs : List (Str × Str)) : StyledState :=
  let alt := (attrValue? attrs c!"alt").getD []
  let src := (attrValue? attrs c!"src").getD []
  if !o.includeImages || src.isEmpty then st
  else
    match env.load src with
    | some img =>
      { st with current := some ((st.current.getD { text := { title := c!"Image" } }).mapText fun s =>
        { s with images := s.images ++ [img] }) }
    | none => st.addParagraph env o (c!"[Image: " ++ (if alt = [] then src else alt) ++ c!"]")

/-- A state whose other fields are changed. -/
def StyledState.mapBase (f : HtmlState → HtmlState) (st : StyledState) : StyledState := { st with base := f st.base }

/-- What an opening tag does besides its style, src/import/html.rs 685-757. -/
def StyledState.openBody (st : StyledState) (name : Str) (attrs : List (Str × Str)) : StyledState :=
  if name = c!"h1" ∨ name = c!"hr" then (st.flushText env o).finalize env o
  else if name ∈ subHeadings then st.flushText env o
  else if name = c!"pre" then st.mapBase fun b => { b with inCode := true, code := [] }
  else if name = c!"table" then st.mapBase fun b => { b with inTable := true, rows := [] }
  else if name = c!"blockquote" then st.mapBase fun b => { b with inQuote := true, quote := [] }
  else if name = c!"ul" ∨ name = c!"ol" then { st with items := [] }
  else if name = c!"strong" ∨ name = c!"b" then st.mapBase (·.mark c!"**")
  else if name = c!"em" ∨ name = c!"i" then st.mapBase (·.mark c!"*")
  else if name = c!"img" then st.image env o attrs
  else if name = c!"br" then st.mapBase (·.mark c!"\n")
  else st

/-- The style of an element in an element with a given style, src/import/html.rs 676-681. -/
def childStyle (low : Str → Str) (parent : InlineStyle) (attrs : List (Str × Str)) : Option InlineStyle :=
  match attrValue? attrs c!"style" with
  | some a => (parseStyle low a).map parent.merge
  | none => some parent

/-- `handle_open_tag`, src/import/html.rs 669-758, after the tag is put on the stack (line 638). -/
def StyledState.openTag (st : StyledState) (name : Str) (attrs : List (Str × Str)) : Option StyledState :=
  let st := st.mapBase fun b => { b with stack := name :: b.stack }
  if st.base.inSkip then some st
  else if voidTags.contains name then some (st.openBody env o name attrs)
  else (childStyle env.low (st.styles.head?.getD {}) attrs).map fun s =>
    StyledState.openBody env o { st with styles := s :: st.styles } name attrs

/-- src/import/html.rs 767-781. -/
def StyledState.closeTitle (st : StyledState) : StyledState :=
  let s := st.styles.head?.getD {}
  { st with
    base := { st.base with
      buffer := [],
      title := if st.base.title = none ∧ trim st.base.buffer ≠ [] then some (trim st.base.buffer) else st.base.title },
    current := some {
      text := { title := if trim st.base.buffer = [] then c!"Slide" else trim st.base.buffer }
      titleColor := s.color.map cleanColor
      titleSize := s.fontSize.or (some 44)
      titleItalic := s.fontStyle.any (styleItalic env.low)
      titleUnderline := s.textDecoration.any (containsStr c!"underline") } }

/-- src/import/html.rs 784-787. -/
def StyledState.closeSub (st : StyledState) : StyledState :=
  if trim st.base.buffer = [] then st.withBuffer []
  else (st.withBuffer []).addFormatted env (c!"**" ++ trim st.base.buffer ++ c!"**")

/-- src/import/html.rs 802-806. -/
def StyledState.closeItem (st : StyledState) : StyledState :=
  { st.withBuffer [] with
    items := if trim st.base.buffer = [] then st.items else st.items ++ [(trim st.base.buffer, st.format env)] }

/-- What a closing tag does, src/import/html.rs 765-848. -/
def StyledState.closeBody (st : StyledState) (name : Str) : Option StyledState :=
  if name = c!"h1" then some (st.closeTitle env)
  else if name ∈ subHeadings then some (st.closeSub env)
  else if name ∈ paragraphTags then some (st.flushText env o)
  else if name = c!"li" then some (st.closeItem env)
  else if name = c!"ul" ∨ name = c!"ol" then some (st.flushItems o)
  else if name = c!"pre" then some (StyledState.flushCode o (st.mapBase fun b => { b with inCode := false }))
  else if name = c!"table" then StyledState.flushTable o (st.mapBase fun b => { b with inTable := false })
  else if name = c!"blockquote" then some (StyledState.flushQuote (st.mapBase fun b => { b with inQuote := false }))
  else if name = c!"th" ∨ name = c!"td" then some (st.mapBase (·.closeCell))
  else if name = c!"tr" then some (st.mapBase (·.closeRow))
  else if name = c!"strong" ∨ name = c!"b" then some (st.mapBase (·.mark c!"**"))
  else if name = c!"em" ∨ name = c!"i" then some (st.mapBase (·.mark c!"*"))
  else some st

/-- The style is taken from the stack, src/import/html.rs 851-853. -/
def StyledState.popStyle (st : StyledState) (name : Str) : StyledState :=
  if voidTags.contains name then st else { st with styles := st.styles.drop 1 }

/-- `handle_close_tag`, src/import/html.rs 760-854, and the pop of line 643. -/
def StyledState.closeTag (st : StyledState) (name : Str) : Option StyledState :=
  (if st.base.inSkip then some st else (st.closeBody env o name).map (·.popStyle name)).map fun st =>
    st.mapBase fun b => { b with stack := b.stack.drop 1 }

/-- src/import/html.rs 635-648. -/
def StyledState.step (st : StyledState) : HtmlEvent → Option StyledState
  | .openTag name attrs => st.openTag env o name attrs
  | .closeTag name => st.closeTag env o name
  | .text t => some (st.mapBase (·.addText t))

/-- All events, src/import/html.rs 635-648. -/
def StyledState.run : StyledState → List HtmlEvent → Option StyledState
  | st, [] => some st
  | st, e :: es => (st.step env o e).bind fun st => st.run es

/-- src/import/html.rs 650-662. -/
def StyledState.finish (st : StyledState) : Except Unit (List StyledSlide) :=
  let slides := (st.finalize env o).slides
  if slides.isEmpty then .error () else .ok (slides.take o.maxSlides)

/-- `HtmlSlideParser::parse`, src/import/html.rs 634-663. -/
def parseStyled (es : List HtmlEvent) : Option (Except Unit (List StyledSlide)) :=
  (StyledState.run env o {} es).map (StyledState.finish env o)

/-- `Html2Ppt::parse`, src/import/html.rs 1087-1090. -/
def parseHtmlStyled (html : Str) : Option (Except Unit (List StyledSlide)) := parseStyled env o (tokenizeHtml env html)

/-- The slide as the writer gets it, without tables, images and code: each bullet is added with `add_bullet` and its format is
set afterwards, src/import/html.rs 875-880. -/
def StyledSlide.written (s : StyledSlide) : SlideText where
  title := s.text.title
  content := s.text.content
  bullets := (s.text.bullets.zip s.formats).map fun p => { text := p.1, format := p.2 }
  titleColor := s.titleColor
  titleSize := s.titleSize
  titleBold := s.titleBold
  titleItalic := s.titleItalic
  titleUnderline := s.titleUnderline

end PptRs.Html
