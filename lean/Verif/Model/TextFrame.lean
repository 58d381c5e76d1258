import Verif.Model.SlideText

/-!
# Text frames

`src/generator/text`: runs, paragraphs and frames, text attributes and right-to-left text. A product
that does not fit into `u32` is a panic, `none`.
-/

namespace PptRs.Text

open PptRs

/-- `TextFormat`, src/generator/text/format.rs 5-16. -/
structure Format where
  bold : Bool := false
  italic : Bool := false
  underline : Bool := false
  strikethrough : Bool := false
  color : Option Str := none
  highlight : Option Str := none
  fontSize : Option Nat := none
  fontFamily : Option Str := none
  subscript : Bool := false
  superscript : Bool := false
deriving DecidableEq, Repr

/-- A call of one of the setters of `TextFormat`. -/
inductive Setter where
  | bold | italic | underline | strikethrough | subscript | superscript
  | color (c : Str)
  | highlight (c : Str)
  | fontSize (n : Nat)
  | fontFamily (s : Str)
deriving DecidableEq, Repr

/-- The setters, src/generator/text/format.rs 25-84. -/
def Format.set (f : Format) : Setter → Format
  | .bold => { f with bold := true }
  | .italic => { f with italic := true }
  | .underline => { f with underline := true }
  | .strikethrough => { f with strikethrough := true }
  | .color c => { f with color := some (cleanColor c) }
  | .highlight c => { f with highlight := some (cleanColor c) }
  | .fontSize n => { f with fontSize := some n }
  | .fontFamily s => { f with fontFamily := some s }
  | .subscript => { f with subscript := true, superscript := false }
  | .superscript => { f with superscript := true, subscript := false }

/-- The text of `TextFormat::to_xml_attrs`, src/generator/text/format.rs 87-117. -/
def Format.attrsText (f : Format) : List Part :=
  whenSet f.bold t!" b=\"1\"" ++ whenSet f.italic t!" i=\"1\"" ++ whenSet f.underline t!" u=\"sng\""
  ++ whenSet f.strikethrough t!" strike=\"sngStrike\""
  ++ whenSet f.subscript t!" baseline=\"-25000\"" ++ whenSet (!f.subscript && f.superscript) t!" baseline=\"30000\""
  ++ whenSome f.fontSize fun n => t!" sz=\"{.num (n * 100)}\""

/-- `TextFormat::to_xml_attrs`, src/generator/text/format.rs 87-117. -/
def Format.attrsXml (f : Format) : Option (List Part) :=
  if f.fontSize.getD 0 * 100 < 4294967296 then some f.attrsText else none

/-- `TextFormat::to_highlight_xml`, src/generator/text/format.rs 120-126. -/
def Format.highlightXml (f : Format) : List Part :=
  whenSome f.highlight fun c => t!"<a:highlight><a:srgbClr val=\"{.raw c}\"/></a:highlight>"

/-- `color_to_xml`, src/generator/text/format.rs 207-210. -/
def colorXml (c : Str) : List Part := t!"<a:solidFill><a:srgbClr val=\"{.raw (cleanColor c)}\"/></a:solidFill>"

/-- `Run`, src/generator/text/run.rs 9-12. -/
structure Run where
  text : Str
  format : Format
deriving DecidableEq, Repr

/-- The size that is written, src/generator/text/run.rs 67. -/
def Run.size (r : Run) : Nat := r.format.fontSize.getD 18 * 100

/-- `Run::bold`, `italic`, `underline`, `color`, `size` and `font` set the format,
src/generator/text/run.rs 30-63. -/
def Run.set (r : Run) (c : Setter) : Run := { r with format := r.format.set c }

/-- The text of `Run::to_xml`, src/generator/text/run.rs 66-84. -/
def Run.toText (r : Run) : List Part :=
  t!"<a:r><a:rPr lang=\"en-US\" sz=\"{.num r.size}\" b=\"{.raw (flag r.format.bold)}\" i=\"{.raw (flag r.format.italic)}\""
  ++ whenSet r.format.underline t!" u=\"sng\"" ++ t!" dirty=\"0\">"
  ++ whenSome r.format.color (fun c => t!"<a:solidFill><a:srgbClr val=\"{.raw c}\"/></a:solidFill>")
  ++ whenSome r.format.fontFamily (fun f => t!"<a:latin typeface=\"{.esc f}\"/>")
  ++ t!"</a:rPr><a:t>{.esc r.text}</a:t></a:r>"

/-- `TextAlign`, src/generator/text/mod.rs 23-29. -/
inductive Align where
  | left | center | right | justify
deriving DecidableEq, Repr

/-- `TextAlign::to_xml`, src/generator/text/mod.rs 33-40. -/
def Align.toXml : Align → Str
  | .left => c!"l"
  | .center => c!"ctr"
  | .right => c!"r"
  | .justify => c!"just"

/-- `TextAnchor`, src/generator/text/mod.rs 45-50. -/
inductive Anchor where
  | top | middle | bottom
deriving DecidableEq, Repr

/-- `TextAnchor::to_xml`, src/generator/text/mod.rs 54-60. -/
def Anchor.toXml : Anchor → Str
  | .top => c!"t"
  | .middle => c!"ctr"
  | .bottom => c!"b"

/-- `Paragraph` and `Paragraph::new`, src/generator/text/paragraph.rs 9-31. -/
structure Paragraph where
  runs : List Run := []
  align : Align := .left
  level : Nat := 0
  bullet : Bool := false
  before : Option Nat := none
  after : Option Nat := none
  line : Option Nat := none
deriving DecidableEq, Repr

/-- `Paragraph::level`, src/generator/text/paragraph.rs 65-68. -/
def Paragraph.withLevel (p : Paragraph) (n : Nat) : Paragraph := { p with level := min n 8 }

/-- `Paragraph::spacing_before`, src/generator/text/paragraph.rs 71-74. -/
def Paragraph.spacingBefore (p : Paragraph) (n : Nat) : Option Paragraph :=
  if n * 100 < 4294967296 then some { p with before := some (n * 100) } else none

/-- `Paragraph::spacing_after`, src/generator/text/paragraph.rs 77-80. -/
def Paragraph.spacingAfter (p : Paragraph) (n : Nat) : Option Paragraph :=
  if n * 100 < 4294967296 then some { p with after := some (n * 100) } else none

/-- The properties of a paragraph, src/generator/text/paragraph.rs 87-105. -/
def Paragraph.props (p : Paragraph) : List Part :=
  t!"<a:pPr algn=\"{.raw p.align.toXml}\" lvl=\"{.num p.level}\""
  ++ (if p.before.isSome || p.after.isSome || p.line.isSome then
      t!">" ++ whenSome p.before (fun n => t!"<a:spcBef><a:spcPts val=\"{.num n}\"/></a:spcBef>")
      ++ whenSome p.after (fun n => t!"<a:spcAft><a:spcPts val=\"{.num n}\"/></a:spcAft>")
      ++ whenSet p.bullet t!"<a:buChar char=\"•\"/>" ++ t!"</a:pPr>"
    else if p.bullet then t!"><a:buChar char=\"•\"/></a:pPr>"
    else t!"/>")

/-- The text of `Paragraph::to_xml`, src/generator/text/paragraph.rs 83-116. -/
def Paragraph.toText (p : Paragraph) : List Part :=
  t!"<a:p>" ++ p.props ++ p.runs.flatMap Run.toText ++ t!"</a:p>"

/-- `TextFrame` and `TextFrame::new`, src/generator/text/frame.rs 9-31. -/
structure TextFrame where
  paragraphs : List Paragraph := []
  anchor : Anchor := .top
  wrap : Bool := true
  left : Nat := 91440
  right : Nat := 91440
  top : Nat := 45720
  bottom : Nat := 45720
deriving DecidableEq, Repr

/-- The text of `TextFrame::to_xml`, src/generator/text/frame.rs 68-87. -/
def TextFrame.toText (f : TextFrame) : List Part :=
  t!"<p:txBody><a:bodyPr wrap=\"{.raw (if f.wrap then c!"square" else c!"none")}\" lIns=\"{.num f.left}\" rIns=\"{.num f.right}\" tIns=\"{.num f.top}\" bIns=\"{.num f.bottom}\" anchor=\"{.raw f.anchor.toXml}\"/><a:lstStyle/>"
  ++ f.paragraphs.flatMap Paragraph.toText
  ++ whenSet f.paragraphs.isEmpty t!"<a:p><a:endParaRPr/></a:p>"
  ++ t!"</p:txBody>"

/-- `Paragraph::with_text`, src/generator/text/paragraph.rs 34-38. -/
def Paragraph.ofText (t : Str) : Paragraph := { runs := [⟨t, {}⟩] }

/-- `TextFrame::add_text`, src/generator/text/frame.rs 47-50. -/
def TextFrame.addText (f : TextFrame) (t : Str) : TextFrame := { f with paragraphs := f.paragraphs ++ [.ofText t] }

/-- `TextFrame::to_xml`, src/generator/text/frame.rs 68-87: a panic if the size of a run does not fit. -/
def TextFrame.toXml (f : TextFrame) : Option (List Part) :=
  if f.paragraphs.all fun p => p.runs.all fun r => r.size < 4294967296 then some f.toText else none

/-- `TextDirection`, src/generator/text/rtl.rs 6-11. -/
inductive Direction where
  | ltr | rtl
deriving DecidableEq, Repr

/-- `to_xml_attr`, src/generator/text/rtl.rs 15-20. -/
def Direction.toXml : Direction → Str
  | .ltr => c!"0"
  | .rtl => c!"1"

/-- `is_rtl`, src/generator/text/rtl.rs 23-25. -/
def Direction.isRtl (d : Direction) : Bool := d == .rtl

/-- `RtlLanguage`, src/generator/text/rtl.rs 29-39. -/
inductive Language where
  | arabic | hebrew | urdu | persian | pashto | sindhi | kurdish | yiddish
deriving DecidableEq, Repr

/-- `lang_tag`, src/generator/text/rtl.rs 43-54. -/
def Language.tag : Language → Str
  | .arabic => c!"ar-SA"
  | .hebrew => c!"he-IL"
  | .urdu => c!"ur-PK"
  | .persian => c!"fa-IR"
  | .pashto => c!"ps-AF"
  | .sindhi => c!"sd-PK"
  | .kurdish => c!"ku-IQ"
  | .yiddish => c!"yi-001"

/-- `default_font`, src/generator/text/rtl.rs 57-63. -/
def Language.font : Language → Str
  | .arabic | .urdu | .persian | .pashto | .sindhi | .kurdish => c!"Arial"
  | .hebrew | .yiddish => c!"Arial"

/-- `direction`, src/generator/text/rtl.rs 66-68. -/
def Language.direction (_ : Language) : Direction := .rtl

/-- `RtlTextProps`, src/generator/text/rtl.rs 72-82. -/
structure Rtl where
  direction : Direction := .ltr
  language : Option Str := none
  font : Option Str := none
deriving DecidableEq, Repr

/-- A call of one of the setters of `RtlTextProps`. -/
inductive RtlCall where
  | rtl | ltr
  | language (l : Str)
  | preset (l : Language)
  | font (f : Str)
deriving DecidableEq, Repr

/-- The setters, src/generator/text/rtl.rs 85-114. -/
def Rtl.set (r : Rtl) : RtlCall → Rtl
  | .rtl => { r with direction := .rtl }
  | .ltr => { r with direction := .ltr }
  | .language l => { r with language := some l }
  | .preset l => ⟨l.direction, some l.tag, some l.font⟩
  | .font f => { r with font := some f }

/-- `to_ppr_xml_attr`, src/generator/text/rtl.rs 117-123. -/
def Rtl.paragraphAttr (r : Rtl) : List Part := whenSet r.direction.isRtl t!" rtl=\"1\""

/-- `to_rpr_xml_attrs`, src/generator/text/rtl.rs 126-132. -/
def Rtl.runAttr (r : Rtl) : List Part := whenSome r.language fun l => t!" lang=\"{.raw l}\""

/-- `to_cs_font_xml`, src/generator/text/rtl.rs 135-141. -/
def Rtl.fontXml (r : Rtl) : List Part := whenSome r.font fun f => t!"<a:cs typeface=\"{.esc f}\"/>"

end PptRs.Text
