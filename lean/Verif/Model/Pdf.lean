import Verif.Model.SlideText
import Verif.Model.Color
import Verif.Model.Repair
import Verif.Model.Utf8

/-!
# Export to PDF

src/export/slide_render.rs. Lengths are integers in units of 1/10000 point: every number the code computes from
font sizes and constants is a whole number of them. Rounding of 32-bit floating point numbers is not modelled. How
numbers are printed is a parameter.
-/

namespace PptRs.Pdf

open PptRs

/-- How numbers are printed: `{}` and `{:.1}` of a length, `{:.3}` of a colour channel divided by 255. -/
structure Printer where
  plain : Int → Str
  one : Int → Str
  chan : UInt8 → Str

/-- The size of a page, `PageLayout` of pdfrs. -/
structure Page where
  width : Int
  height : Int

/-- A colour as printed. -/
abbrev Rgb := Str × Str × Str

/-- `font_name`, src/export/slide_render.rs 55-62. -/
def fontName : Bool → Bool → Str
  | true, true => c!"Helvetica-BoldOblique"
  | true, false => c!"Helvetica-Bold"
  | false, true => c!"Helvetica-Oblique"
  | false, false => c!"Helvetica"

/-- `hex_to_rgb`, src/export/slide_render.rs 64-74; `none` is a panic. -/
def hexToRgb (P : Printer) (hex : Str) : Option Rgb :=
  let h := trimStartChar '#' hex
  if utf8Len h = 6 then
    (byteSlice h 0 2).bind fun r => (byteSlice h 2 4).bind fun g => (byteSlice h 4 6).map fun b =>
      (P.chan ((parseHexU8 r).getD 0), P.chan ((parseHexU8 g).getD 0), P.chan ((parseHexU8 b).getD 0))
  else some (c!"0.000", c!"0.000", c!"0.000")

/-- `escape_pdf_text`, src/export/slide_render.rs 76-80. -/
def escapePdf (s : Str) : Str :=
  replaceChar ')' c!"\\)" (replaceChar '(' c!"\\(" (replaceChar '\\' c!"\\\\" s))

/-- `set_color`, src/export/slide_render.rs 82-84. -/
def setColor (c : Rgb) : Str := c.1 ++ c!" " ++ c.2.1 ++ c!" " ++ c.2.2 ++ c!" rg\n"

/-- `set_font`, src/export/slide_render.rs 86-88. -/
def setFont (P : Printer) (name : Str) (size : Int) : Str := c!"/" ++ name ++ c!" " ++ P.plain size ++ c!" Tf\n"

/-- `draw_rect`, src/export/slide_render.rs 90-93. -/
def drawRect (P : Printer) (x y w h : Int) : Str :=
  P.one x ++ c!" " ++ P.one y ++ c!" " ++ P.one w ++ c!" " ++ P.one h ++ c!" re\n" ++ c!"f\n"

/-- `draw_text_line`, src/export/slide_render.rs 95-112. -/
def drawTextLine (P : Printer) (text : Str) (x y : Int) (font : Str) (size : Int) (c : Rgb) : Str :=
  setColor c ++ setFont P font size ++ c!"BT\n" ++ (P.plain x ++ c!" " ++ P.one y ++ c!" Td\n")
    ++ (c!"(" ++ escapePdf text ++ c!") Tj\n") ++ c!"ET\n"

/-- `approx_text_width`, src/export/slide_render.rs 114-117. -/
def textWidth (text : Str) (size : Int) : Int := text.length * size / 2

/-- The values and symbols of Roman numerals, src/export/slide_render.rs 133. -/
def romanPairs : List (Nat × Str) :=
  [(1000, c!"M"), (900, c!"CM"), (500, c!"D"), (400, c!"CD"), (100, c!"C"), (90, c!"XC"), (50, c!"L"), (40, c!"XL"),
   (10, c!"X"), (9, c!"IX"), (5, c!"V"), (4, c!"IV"), (1, c!"I")]

/-- The loops of `to_roman`, src/export/slide_render.rs 135-140: subtracting `v` while it is not larger than the
number writes the symbol `n / v` times and leaves `n % v`. -/
def romanLoop : List (Nat × Str) → Nat → Str
  | [], _ => []
  | (v, s) :: ps, n => (List.replicate (n / v) s).flatten ++ romanLoop ps (n % v)

/-- `to_roman`, src/export/slide_render.rs 132-142. -/
def toRoman (n : Nat) : Str := romanLoop romanPairs n

/-- `char::from_u32(n).unwrap_or(d)`. -/
def charOr (d : Char) (n : Nat) : Char := if n.isValidChar then Char.ofNat n else d

/-- `bullet_prefix`, src/export/slide_render.rs 119-130. -/
def bulletPrefix : BulletStyle → Nat → Str
  | .bullet, _ => c!"•"
  | .number, i => dec (i + 1) ++ c!"."
  | .letterLower, i => [charOr 'a' (97 + i)] ++ c!"."
  | .letterUpper, i => [charOr 'A' (65 + i)] ++ c!"."
  | .romanLower, i => (toRoman (i + 1)).map Char.toLower
  | .romanUpper, i => toRoman (i + 1)
  | .custom c, _ => [c]
  | .none, _ => []

/-- The styles that are counted, src/export/slide_render.rs 268. -/
def counted : BulletStyle → Bool
  | .number | .letterLower | .letterUpper | .romanLower | .romanUpper => true
  | _ => false

/-- The margin, src/export/slide_render.rs 153. -/
def margin : Int := 540000

/-- A font size in points times 0.75, src/export/slide_render.rs 160 and 206. -/
def points (n : Nat) : Int := 7500 * n

/-- The size of the title, src/export/slide_render.rs 160. -/
def titleSize (s : SlideText) : Int := points (s.titleSize.getD 36)

/-- The size of the content, src/export/slide_render.rs 206. -/
def contentSize (s : SlideText) : Int := points (s.contentSize.getD 24)

/-- The height of a line, src/export/slide_render.rs 215. -/
def lineHeight (s : SlideText) : Int := contentSize s * 3 / 2

/-- src/export/slide_render.rs 169. -/
def titleY (g : Page) (s : SlideText) : Int := g.height - margin - titleSize s

/-- src/export/slide_render.rs 172 and 218. -/
def centered (s : SlideText) : Bool := s.layout = .centeredTitle || s.layout = .sectionHeader

/-- The title, src/export/slide_render.rs 171-203. -/
def renderTitle (P : Printer) (g : Page) (s : SlideText) (c : Rgb) : Str :=
  let y := titleY g s
  let font := fontName s.titleBold s.titleItalic
  if centered s then drawTextLine P s.title ((g.width - textWidth s.title (titleSize s)) / 2) y font (titleSize s) c
  else
    drawTextLine P s.title margin y font (titleSize s) c ++
      if s.titleUnderline then
        setColor c ++ (P.one margin ++ c!" " ++ P.one (y - 40000) ++ c!" m\n" ++ P.one (g.width - margin) ++ c!" "
          ++ P.one (y - 40000) ++ c!" l\n1 w\nS\n")
      else []

/-- The colour of a bullet, src/export/slide_render.rs 234-237; `none` is a panic. -/
def bulletColor (P : Printer) (c : Rgb) (b : BulletPoint) : Option Rgb :=
  match b.format.bind (·.color) with
  | some h => hexToRgb P h
  | none => some c

/-- The font of a bullet, src/export/slide_render.rs 231-233. -/
def bulletFont (s : SlideText) (b : BulletPoint) : Str :=
  fontName (s.contentBold || b.format.any (·.bold)) (s.contentItalic || b.format.any (·.italic))

/-- The size of a bullet, src/export/slide_render.rs 238-241. -/
def bulletSize (s : SlideText) (b : BulletPoint) : Int :=
  match b.format.bind (·.fontSize) with
  | some n => points n
  | none => contentSize s

/-- One bullet, src/export/slide_render.rs 227-265. -/
def renderBullet (P : Printer) (s : SlideText) (b : BulletPoint) (y : Int) (n : Nat) (c : Rgb) : Str :=
  let pre := bulletPrefix b.style n
  let x := margin + 200000 * b.level
  (if pre = [] then [] else drawTextLine P pre x y (bulletFont s b) (bulletSize s b) c)
    ++ drawTextLine P b.text (x + if pre = [] then 0 else 200000) y (bulletFont s b) (bulletSize s b) c

/-- The loop over the bullets, src/export/slide_render.rs 222-271. -/
def bulletsLoop (P : Printer) (s : SlideText) (c : Rgb) : Int → Nat → List BulletPoint → Option (Str × Int)
  | y, _, [] => some ([], y)
  | y, n, b :: bs =>
    if y < margin + lineHeight s then some ([], y)
    else
      (bulletColor P c b).bind fun bc =>
        (bulletsLoop P s c (y - lineHeight s) (if counted b.style then n + 1 else n) bs).map fun r =>
          (renderBullet P s b y n bc ++ r.1, r.2)

/-- The loop over the lines of content, src/export/slide_render.rs 273-285. -/
def contentLoop (P : Printer) (g : Page) (s : SlideText) (c : Rgb) : Int → List Str → Str × Int
  | y, [] => ([], y)
  | y, l :: ls =>
    if y < margin + lineHeight s then ([], y)
    else
      let x := if centered s then (g.width - textWidth l (contentSize s)) / 2 else margin
      let r := contentLoop P g s c (y - lineHeight s) ls
      (drawTextLine P l x y (fontName s.contentBold s.contentItalic) (contentSize s) c ++ r.1, r.2)

/-- The size of code, src/export/slide_render.rs 293. -/
def codeSize (s : SlideText) : Int := contentSize s * 17 / 20

/-- The height of a line of code, src/export/slide_render.rs 294. -/
def codeLineHeight (s : SlideText) : Int := codeSize s * 7 / 5

/-- The lines of a code block, src/export/slide_render.rs 303-309. -/
def codeLines (P : Printer) (s : SlideText) : Int → List Str → Str × Int
  | y, [] => ([], y)
  | y, l :: ls =>
    if y < margin then ([], y)
    else
      let r := codeLines P s (y - codeLineHeight s) ls
      (drawTextLine P l (margin + 80000) y c!"Courier" (codeSize s) (c!"0.100", c!"0.100", c!"0.100") ++ r.1, r.2)

/-- The code blocks, src/export/slide_render.rs 289-311. -/
def codesLoop (P : Printer) (g : Page) (s : SlideText) : Int → List Str → Str
  | _, [] => []
  | y, code :: cs =>
    if y < margin + lineHeight s then []
    else
      let h := ((strLines code).length + 1) * codeLineHeight s
      let r := codeLines P s (y - codeLineHeight s) (strLines code)
      setColor (c!"0.950", c!"0.950", c!"0.950") ++ drawRect P margin (y - h) (g.width - 2 * margin) h
        ++ r.1 ++ codesLoop P g s (r.2 - lineHeight s / 2) cs

/-- The slide number, src/export/slide_render.rs 314-324. -/
def renderFooter (P : Printer) (g : Page) (num total : Nat) : Str :=
  let footer := dec num ++ c!" / " ++ dec total
  drawTextLine P footer ((g.width - textWidth footer 100000) / 2) (margin / 2) c!"Helvetica" 100000
    (c!"0.500", c!"0.500", c!"0.500")

/-- The colour set for a text, or the default. -/
def colorOr (P : Printer) (d : Rgb) : Option Str → Option Rgb
  | some h => hexToRgb P h
  | none => some d

/-- `render_slide`, src/export/slide_render.rs 144-327; `none` is a panic. `codes` are the texts of the code
blocks. -/
def renderSlide (P : Printer) (g : Page) (s : SlideText) (codes : List Str) (num total : Nat) : Option Str :=
  (colorOr P (c!"0.100", c!"0.100", c!"0.100") s.titleColor).bind fun tc =>
  (colorOr P (c!"0.200", c!"0.200", c!"0.200") s.contentColor).bind fun cc =>
  let y := titleY g s - lineHeight s * 3 / 2
  (if s.bullets ≠ [] then bulletsLoop P s cc y 0 s.bullets else some (contentLoop P g s cc y s.content)).map fun body =>
    setColor (c!"1.000", c!"1.000", c!"1.000") ++ drawRect P 0 0 g.width g.height ++ renderTitle P g s tc ++ body.1
      ++ codesLoop P g s body.2 codes ++ renderFooter P g num total

/-! ### Objects -/

/-- The objects of a PDF file, src/export/slide_render.rs 30-53 and 329-361, 391-407. Dictionaries are given by
their entries. -/
inductive Obj where
  | font (base : Str)
  | stream (length : Nat) (content : Bytes)
  | page (parent : Nat) (contents : Nat) (fonts : List (Str × Nat))
  | pages (kids : List Nat) (count : Nat)
  | catalog (pages : Nat)
deriving DecidableEq

/-- `PdfGenerator` of pdfrs: objects get consecutive numbers. -/
structure Gen where
  nextId : Nat
  objects : List (Nat × Obj) := []

/-- `add_object` and `add_stream_object` of pdfrs. -/
def Gen.add (g : Gen) (o : Obj) : Gen × Nat :=
  ({ nextId := g.nextId + 1, objects := g.objects ++ [(g.nextId, o)] }, g.nextId)

/-- The names of the fonts, src/export/slide_render.rs 18-21. -/
def fontNames : List Str := [c!"Helvetica", c!"Helvetica-Bold", c!"Helvetica-Oblique", c!"Helvetica-BoldOblique"]

/-- `add_fonts`, src/export/slide_render.rs 30-53. -/
def addFonts : Gen → List Str → Gen × List (Str × Nat)
  | g, [] => (g, [])
  | g, n :: ns =>
    let r := g.add (.font n)
    let q := addFonts r.1 ns
    (q.1, (n, r.2) :: q.2)

/-- `add_page`, src/export/slide_render.rs 329-361. -/
def addPage (g : Gen) (content : Bytes) (fonts : List (Str × Nat)) (parent : Nat) : Gen × Nat :=
  let r := g.add (.stream content.length content)
  r.1.add (.page parent r.2 fonts)

/-- The loop over the slides, src/export/slide_render.rs 384-388. -/
def addPages (P : Printer) (pg : Page) (total : Nat) (fonts : List (Str × Nat)) (parent : Nat) :
    Gen → Nat → List (SlideText × List Str) → Option (Gen × List Nat)
  | g, _, [] => some (g, [])
  | g, i, s :: ss =>
    (renderSlide P pg s.1 s.2 (i + 1) total).bind fun c =>
      let r := addPage g (encode c) fonts parent
      (addPages P pg total fonts parent r.1 (i + 1) ss).map fun q => (q.1, r.2 :: q.2)

/-- The outcome of an export. -/
inductive Outcome where
  | ok (g : Gen)
  | empty
  | panic

/-- `render_to_pdf_bytes`, src/export/slide_render.rs 367-411, up to the bytes that pdfrs writes for the objects. -/
def renderToPdf (P : Printer) (pg : Page) (start : Nat) (slides : List (SlideText × List Str)) : Outcome :=
  if slides = [] then .empty
  else
    let f := addFonts { nextId := start } fontNames
    let pagesId := f.1.nextId + 2 * slides.length
    match addPages P pg slides.length f.2 pagesId f.1 0 slides with
    | none => .panic
    | some (g, ids) =>
      let r := g.add (.pages ids ids.length)
      if r.2 = pagesId then .ok (r.1.add (.catalog pagesId)).1 else .panic

end PptRs.Pdf
