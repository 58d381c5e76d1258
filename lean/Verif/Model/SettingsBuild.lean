import Verif.Model.Settings

/-!
# Building settings of a presentation

The methods that change slide show and print settings, pens, strokes, fonts and signatures.
-/

namespace PptRs.SettingsBuild

open PptRs PptRs.Settings

/-- The methods of `SlideShowSettings`, src/generator/slide_content/slide_show_settings.rs 80-118; a pen colour is the text given to
`PenColor::new`. -/
inductive ShowCall where
  | showType (t : ShowType)
  | looping (b : Bool)
  | withoutNarration (b : Bool)
  | withoutAnimation (b : Bool)
  | penColor (c : Str)
  | slideRange (r : SlideRange)
  | useTimings (b : Bool)
  | mediaControls (b : Bool)
deriving DecidableEq

/-- What they do, src/generator/slide_content/slide_show_settings.rs 80-118. -/
def setShow (s : SlideShow) : ShowCall → SlideShow
  | .showType t => { s with showType := t }
  | .looping b => { s with looping := b }
  | .withoutNarration b => { s with withoutNarration := b }
  | .withoutAnimation b => { s with withoutAnimation := b }
  | .penColor c => { s with penColor := penColorOf c }
  | .slideRange r => { s with slideRange := r }
  | .useTimings b => { s with useTimings := b }
  | .mediaControls b => { s with mediaControls := b }

/-- The methods of `PrintSettings`, src/generator/slide_content/print_settings.rs 123-176. -/
inductive PrintCall where
  | what (w : PrintWhat)
  | colorMode (m : PrintColorMode)
  | handoutLayout (l : HandoutLayout)
  | frameSlides (b : Bool)
  | scaleToFit (b : Bool)
  | includeHidden (b : Bool)
  | portrait (b : Bool)
  | header (s : Str)
  | footer (s : Str)
  | printDate (b : Bool)
  | printPageNumbers (b : Bool)
deriving DecidableEq

/-- What they do, src/generator/slide_content/print_settings.rs 123-176. -/
def setPrint (p : PrintSettings) : PrintCall → PrintSettings
  | .what w => { p with what := w }
  | .colorMode m => { p with colorMode := m }
  | .handoutLayout l => { p with handoutLayout := l }
  | .frameSlides b => { p with frameSlides := b }
  | .scaleToFit b => { p with scaleToFit := b }
  | .includeHidden b => { p with includeHidden := b }
  | .portrait b => { p with portrait := b }
  | .header s => { p with masters := { p.masters with header := some s } }
  | .footer s => { p with masters := { p.masters with footer := some s } }
  | .printDate b => { p with masters := { p.masters with printDate := b } }
  | .printPageNumbers b => { p with masters := { p.masters with printPageNumbers := b } }

/-- `PrintSettings::new`, src/generator/slide_content/print_settings.rs 116-121. -/
def newPrint : PrintSettings := { scaleToFit := true }

/-- `HandoutLayout::to_xml_value`, src/generator/slide_content/print_settings.rs 30-39. -/
def handoutName : HandoutLayout → Str
  | .one => c!"handout1"
  | .two => c!"handout2"
  | .three => c!"handout3"
  | .four => c!"handout4"
  | .six => c!"handout6"
  | .nine => c!"handout9"

/-- The methods of `SignerInfo` and `DigitalSignature`, src/generator/slide_content/digital_signature.rs 53-66 and 117-135. -/
inductive SignCall where
  | email (s : Str)
  | organization (s : Str)
  | title (s : Str)
  | hash (h : HashAlgorithm)
  | date (s : Str)
  | commitment (c : Commitment)
  | comments (s : Str)
deriving DecidableEq

/-- What they do, src/generator/slide_content/digital_signature.rs 53-66 and 117-135. -/
def setSign (g : Signature) : SignCall → Signature
  | .email s => { g with email := some s }
  | .organization s => { g with organization := some s }
  | .title s => { g with title := some s }
  | .hash h => { g with hash := h }
  | .date s => { g with date := some s }
  | .commitment c => { g with commitment := c }
  | .comments s => { g with comments := some s }

/-- `SignerInfo::new` and `DigitalSignature::new`, src/generator/slide_content/digital_signature.rs 46-51 and 107-115. -/
def newSignature (name : Str) : Signature := { name }

/-- `HashAlgorithm::name`, src/generator/slide_content/digital_signature.rs 26-33. -/
def hashName : HashAlgorithm → Str
  | .sha256 => c!"SHA-256"
  | .sha384 => c!"SHA-384"
  | .sha512 => c!"SHA-512"
  | .sha1 => c!"SHA-1"

/-- The methods of `EmbeddedFont`, src/generator/slide_content/embedded_fonts.rs 102-115. -/
inductive FontCall where
  | charset (c : Charset)
  | panose (s : Str)
  | pitchFamily (n : UInt8)
deriving DecidableEq

/-- What they do, src/generator/slide_content/embedded_fonts.rs 102-115. -/
def setFont (f : FontIn) : FontCall → FontIn
  | .charset c => { f with charset := c }
  | .panose s => { f with panose := some s }
  | .pitchFamily n => { f with pitchFamily := n }

/-- `EmbeddedFont::new`, src/generator/slide_content/embedded_fonts.rs 90-100, without the data. -/
def newFont (typeface : Str) (style : FontStyle) (rid : Str) : FontIn := { font := ⟨typeface, style, rid⟩ }

/-- `FontStyle::is_bold`, src/generator/slide_content/embedded_fonts.rs 26-28. -/
def isBold : FontStyle → Bool
  | .bold | .boldItalic => true
  | _ => false

/-- `FontStyle::is_italic`, src/generator/slide_content/embedded_fonts.rs 30-32. -/
def isItalic : FontStyle → Bool
  | .italic | .boldItalic => true
  | _ => false

/-- `EmbeddedFontList::find_by_typeface` and `total_size`, src/generator/slide_content/embedded_fonts.rs 187-194, of fonts with their data. -/
def findFonts (l : List (FontIn × Bytes)) (typeface : Str) : List (FontIn × Bytes) := l.filter fun f => f.1.font.typeface = typeface

/-- `total_size`, src/generator/slide_content/embedded_fonts.rs 187-189. -/
def totalSize (l : List (FontIn × Bytes)) : Nat := (l.map fun f => f.2.length).sum

/-- `InkStroke::add_point` and `add_points`, src/generator/slide_content/ink_annotations.rs 104-115, with coordinates after the conversion. -/
inductive PointCall where
  | point (x y : Int)
  | points (l : List (Int × Int))
deriving DecidableEq

/-- What they do, src/generator/slide_content/ink_annotations.rs 104-115. -/
def addPoints (s : Stroke) : PointCall → Stroke
  | .point x y => { s with points := s.points ++ [(x, y)] }
  | .points l => l.foldl (fun s p => { s with points := s.points ++ [p] }) s

/-- The methods of `InkAnnotations` that change it, src/generator/slide_content/ink_annotations.rs 159-161 and 178-180. -/
inductive InkCall where
  | add (s : Stroke)
  | clear
deriving DecidableEq

/-- What they do, src/generator/slide_content/ink_annotations.rs 159-161 and 178-180. -/
def setInk (l : List Stroke) : InkCall → List Stroke
  | .add s => l ++ [s]
  | .clear => []

end PptRs.SettingsBuild
