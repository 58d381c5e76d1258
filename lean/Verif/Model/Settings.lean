import Verif.Model.Drawing
import Verif.Model.PackageText
import Verif.Model.Parts

/-!
# Settings of a presentation: slide show, print, fonts, ink and signature
-/

namespace PptRs.Settings

open PptRs

/-! ### Slide show -/

/-- `ShowType`, src/generator/slide_content/slide_show_settings.rs 8-13. -/
inductive ShowType where
  | speaker | kiosk | browsed
deriving DecidableEq, Repr

/-- `ShowType::to_xml_element`, src/generator/slide_content/slide_show_settings.rs 16-22. -/
def ShowType.toXml : ShowType → List Part
  | .speaker => t!"<p:present/>"
  | .kiosk => t!"<p:kiosk restart=\"300000\"/>"
  | .browsed => t!"<p:browse showScrollbar=\"1\"/>"

/-- `SlideRange`, src/generator/slide_content/slide_show_settings.rs 51-56. -/
inductive SlideRange where
  | all
  | range (start finish : Nat)
  | custom (slides : List Nat)
deriving DecidableEq, Repr

/-- `SlideShowSettings`, src/generator/slide_content/slide_show_settings.rs 60-69. The pen colour is
the text stored in `PenColor`. -/
structure SlideShow where
  showType : ShowType := .speaker
  looping : Bool := false
  withoutNarration : Bool := false
  withoutAnimation : Bool := false
  penColor : Str := c!"FF0000"
  slideRange : SlideRange := .all
  useTimings : Bool := false
  mediaControls : Bool := false
deriving DecidableEq, Repr

/-- `PenColor::new`, src/generator/slide_content/slide_show_settings.rs 32-36. -/
def penColorOf (c : Str) : Str := cleanColor c

/-- `SlideShowSettings::new`, src/generator/slide_content/slide_show_settings.rs 72-78. -/
def SlideShow.new : SlideShow := { mediaControls := true }

/-- `SlideShowSettings::kiosk`, src/generator/slide_content/slide_show_settings.rs 121-126. -/
def SlideShow.kioskMode : SlideShow :=
  { SlideShow.new with showType := .kiosk, looping := true, withoutNarration := true }

/-- The entry of a slide of a custom show, src/generator/slide_content/slide_show_settings.rs 165. -/
def customSlide (n : Nat) : List Part := t!"<p:sldId id=\"{.num n}\"/>"

/-- The slides shown, src/generator/slide_content/slide_show_settings.rs 157-169. -/
def SlideRange.toXml : SlideRange → List Part
  | .all => t!"<p:sldAll/>"
  | .range a b => t!"<p:sldRg st=\"{.num a}\" end=\"{.num b}\"/>"
  | .custom l => t!"<p:custShow>" ++ l.flatMap customSlide ++ t!"</p:custShow>"

/-- The attributes of `p:showPr`, each after a blank (`join`),
src/generator/slide_content/slide_show_settings.rs 130-149. -/
def SlideShow.attrs (s : SlideShow) : List Part :=
  whenSet s.looping t!" loop=\"1\"" ++ whenSet s.withoutNarration t!" showNarration=\"0\""
    ++ whenSet s.withoutAnimation t!" showAnimation=\"0\"" ++ whenSet s.useTimings t!" useTimings=\"1\""

/-- The extension that shows the media controls, src/generator/slide_content/slide_show_settings.rs
181-185. -/
def mediaControlsExt : List Part :=
  t!"<p:ext uri=\"\x7b2FDB2607-1784-4EEB-B798-7EB5836EED8A}\"><p14:showMediaCtrls xmlns:p14=\"http://schemas.microsoft.com/office/powerpoint/2010/main\" val=\"1\"/></p:ext>"

/-- `SlideShowSettings::to_xml`, src/generator/slide_content/slide_show_settings.rs 129-190. -/
def SlideShow.toXml (s : SlideShow) : List Part :=
  t!"<p:showPr" ++ s.attrs ++ t!">" ++ s.showType.toXml ++ s.slideRange.toXml
    ++ t!"<p:penClr><a:srgbClr val=\"{.raw s.penColor}\"/></p:penClr><p:extLst><p:ext uri=\"\x7bEC167BDD-8182-4AB7-AECC-EB403E3ABB37}\"><p14:laserClr xmlns:p14=\"http://schemas.microsoft.com/office/powerpoint/2010/main\"><a:srgbClr val=\"{.raw s.penColor}\"/></p14:laserClr></p:ext>"
    ++ whenSet s.mediaControls mediaControlsExt ++ t!"</p:extLst></p:showPr>"

/-- The XML declaration without a line break. -/
def xmlDeclTight : Str := c!"<?xml version=\"1.0\" encoding=\"UTF-8\" standalone=\"yes\"?>"

/-- The elements of `ppt/presProps.xml`, src/generator/package_xml.rs 276-293. -/
def presPropsBody (show? : Option SlideShow) : List Part :=
  t!"<p:presentationPr xmlns:a=\"http://schemas.openxmlformats.org/drawingml/2006/main\" xmlns:r=\"http://schemas.openxmlformats.org/officeDocument/2006/relationships\" xmlns:p=\"http://schemas.openxmlformats.org/presentationml/2006/main\">"
    ++ whenSome show? SlideShow.toXml
    ++ t!"<p:extLst><p:ext uri=\"\x7bE76CE94A-603C-4142-B9EB-6D1370010A27}\"><p14:discardImageEditData xmlns:p14=\"http://schemas.microsoft.com/office/powerpoint/2010/main\" val=\"0\"/></p:ext><p:ext uri=\"\x7bD31A062A-798A-4329-ABDD-BBA856620510}\"><p14:defaultImageDpi xmlns:p14=\"http://schemas.microsoft.com/office/powerpoint/2010/main\" val=\"0\"/></p:ext><p:ext uri=\"\x7bFD5EFAAD-0ECE-453E-9831-46B23BE46B34}\"><p15:chartTrackingRefBased xmlns:p15=\"http://schemas.microsoft.com/office/powerpoint/2012/main\" val=\"0\"/></p:ext></p:extLst></p:presentationPr>"

/-- `create_pres_props_xml`, src/generator/package_xml.rs 276-293. -/
def createPresPropsXml (show? : Option SlideShow) : Str := xmlDeclTight ++ fmt (presPropsBody show?)

/-- `create_view_props_xml`, src/generator/package_xml.rs 296-310. -/
def viewPropsBody : List Part :=
  t!"<p:viewPr xmlns:a=\"http://schemas.openxmlformats.org/drawingml/2006/main\" xmlns:r=\"http://schemas.openxmlformats.org/officeDocument/2006/relationships\" xmlns:p=\"http://schemas.openxmlformats.org/presentationml/2006/main\">
<p:normalViewPr><p:restoredLeft sz=\"15620\"/><p:restoredTop sz=\"94660\"/></p:normalViewPr>
<p:slideViewPr><p:cSldViewPr><p:cViewPr varScale=\"1\"><p:scale><a:sx n=\"64\" d=\"100\"/><a:sy n=\"64\" d=\"100\"/></p:scale><p:origin x=\"-1392\" y=\"-96\"/></p:cViewPr><p:guideLst/></p:cSldViewPr></p:slideViewPr>
<p:notesTextViewPr><p:cViewPr><p:scale><a:sx n=\"1\" d=\"1\"/><a:sy n=\"1\" d=\"1\"/></p:scale><p:origin x=\"0\" y=\"0\"/></p:cViewPr></p:notesTextViewPr>
<p:gridSpacing cx=\"72008\" cy=\"72008\"/>
</p:viewPr>"

/-! ### Print -/

/-- `PrintWhat`, src/generator/slide_content/print_settings.rs 63-69. -/
inductive PrintWhat where
  | slides | handouts | notes | outline
deriving DecidableEq, Repr

/-- `PrintWhat::to_xml_value`, src/generator/slide_content/print_settings.rs 72-79. -/
def PrintWhat.value : PrintWhat → Str
  | .slides => c!"slides"
  | .handouts => c!"handouts"
  | .notes => c!"notes"
  | .outline => c!"outline"

/-- `PrintColorMode`, src/generator/slide_content/print_settings.rs 44-49. -/
inductive PrintColorMode where
  | color | grayscale | blackAndWhite
deriving DecidableEq, Repr

/-- `PrintColorMode::to_xml_value`, src/generator/slide_content/print_settings.rs 52-58. -/
def PrintColorMode.value : PrintColorMode → Str
  | .color => c!"clr"
  | .grayscale => c!"gray"
  | .blackAndWhite => c!"bw"

/-- `HandoutLayout`, src/generator/slide_content/print_settings.rs 8-16. -/
inductive HandoutLayout where
  | one | two | three | four | six | nine
deriving DecidableEq, Repr

/-- `HandoutLayout::slides_per_page`, src/generator/slide_content/print_settings.rs 19-28. -/
def HandoutLayout.perPage : HandoutLayout → Nat
  | .one => 1
  | .two => 2
  | .three => 3
  | .four => 4
  | .six => 6
  | .nine => 9

/-- `PrintSettings`, src/generator/slide_content/print_settings.rs 101-113. -/
structure PrintSettings where
  what : PrintWhat := .slides
  colorMode : PrintColorMode := .color
  handoutLayout : HandoutLayout := .three
  frameSlides : Bool := false
  scaleToFit : Bool := false
  includeHidden : Bool := false
  portrait : Bool := false
  masters : PrintIn := ⟨none, none, false, false⟩
deriving DecidableEq, Repr

/-- `PrintSettings::to_prnpr_xml`, src/generator/slide_content/print_settings.rs 179-195. -/
def PrintSettings.toPrnPr (p : PrintSettings) : List Part :=
  t!"<p:prnPr prnWhat=\"{.raw p.what.value}\" clrMode=\"{.raw p.colorMode.value}\""
    ++ whenSet p.frameSlides t!" frameSlides=\"1\"" ++ whenSet p.includeHidden t!" hiddenSlides=\"1\""
    ++ whenSet p.scaleToFit t!" scaleToFitPaper=\"1\"" ++ t!"/>"

/-- The parts of a package that depend on the print settings: the slide master and, for handouts, the
handout master (`uses_handouts`, src/generator/builder.rs 422-430, 583-605 and
src/generator/layout_parts.rs 51-108). `styles` are the text styles of the slide master. -/
def printTexts (styles : List Part) (p : PrintSettings) : List Str :=
  createSlideMasterXml styles (some p.masters) ::
    if p.what = .handouts then [toHandoutMasterXml p.masters] else []

/-! ### Embedded fonts -/

/-- The codes of `FontCharset`, src/generator/slide_content/embedded_fonts.rs 37-74. -/
inductive Charset where
  | ansi | symbol | shiftJis | hangul | gb2312 | chineseBig5 | greek | turkish | hebrew | arabic | baltic
  | russian | thai | eastEurope
deriving DecidableEq, Repr

/-- `FontCharset::code`, src/generator/slide_content/embedded_fonts.rs 56-73. -/
def Charset.code : Charset → Nat
  | .ansi => 0x00
  | .symbol => 0x02
  | .shiftJis => 0x80
  | .hangul => 0x81
  | .gb2312 => 0x86
  | .chineseBig5 => 0x88
  | .greek => 0xA1
  | .turkish => 0xA2
  | .hebrew => 0xB1
  | .arabic => 0xB2
  | .baltic => 0xBA
  | .russian => 0xCC
  | .thai => 0xDE
  | .eastEurope => 0xEE

/-- `EmbeddedFont`, src/generator/slide_content/embedded_fonts.rs 78-86, without the data. -/
structure FontIn where
  font : EmbeddedFont
  charset : Charset := .ansi
  panose : Option Str := none
  pitchFamily : UInt8 := 0x22
deriving DecidableEq

/-- The font descriptor, src/generator/slide_content/embedded_fonts.rs 221-232. -/
def fontDescriptor (f : FontIn) : List Part :=
  t!"<p:font typeface=\"{.esc f.font.typeface}\" charset=\"{.num f.charset.code}\" pitchFamily=\"{.num f.pitchFamily.toNat}\""
    ++ whenSome f.panose (fun p => t!" panose=\"{.raw p}\"") ++ t!"/>"

/-- The reference to the data of a font, src/generator/slide_content/embedded_fonts.rs 235-241. -/
def fontVariant (f : FontIn) : List Part :=
  t!"<p:{.raw f.font.style.xmlElement} r:id=\"{.raw f.font.relationshipId}\"/>"

/-- The fonts of a typeface, src/generator/slide_content/embedded_fonts.rs 213-216. -/
def variantsOf (fonts : List FontIn) (typeface : Str) : List FontIn :=
  fonts.filter fun f => f.font.typeface = typeface

/-- The entry of a typeface, src/generator/slide_content/embedded_fonts.rs 218-243. -/
def fontGroup (fonts : List FontIn) (typeface : Str) : List Part :=
  t!"<p:embeddedFont>" ++ whenSome (variantsOf fonts typeface).head? fontDescriptor
    ++ (variantsOf fonts typeface).flatMap fontVariant ++ t!"</p:embeddedFont>"

/-- The typefaces in the order of their first appearance,
src/generator/slide_content/embedded_fonts.rs 205-210. -/
def typefacesFrom (seen : List Str) : List FontIn → List Str
  | [] => seen
  | f :: fs => typefacesFrom (if seen.contains f.font.typeface then seen else seen ++ [f.font.typeface]) fs

/-- `EmbeddedFontList::to_xml`, src/generator/slide_content/embedded_fonts.rs 197-248. -/
def fontList (fonts : List FontIn) : List Part :=
  if fonts.isEmpty then []
  else t!"<p:embeddedFontLst>" ++ (typefacesFrom [] fonts).flatMap (fontGroup fonts) ++ t!"</p:embeddedFontLst>"

/-! ### Ink -/

/-- A stroke, src/generator/slide_content/ink_annotations.rs 25-30 and 90-93. The coordinates are those after
the conversion to `i64` and `transparency` is the number written for an opacity that differs from 1 by more
than 0.01. -/
structure Stroke where
  points : List (Int × Int)
  color : Str
  width : Nat
  flat : Bool
  transparency : Option Nat
deriving DecidableEq

/-- `InkStroke::points_str`, src/generator/slide_content/ink_annotations.rs 127-133. -/
def Stroke.pointsText (s : Stroke) : Str :=
  joinStr c!" " (s.points.map fun p => Draw.decInt p.1 ++ c!" " ++ Draw.decInt p.2)

/-- A brush, src/generator/slide_content/ink_annotations.rs 195-203. -/
def Stroke.brush (i : Nat) (s : Stroke) : List Part :=
  t!"<ink:brush id=\"br{.num i}\" color=\"#{.raw s.color}\" width=\"{.num s.width}\" tip=\"{.raw (if s.flat then c!"flat" else c!"ball")}\""
    ++ whenSome s.transparency (fun t => t!" transparency=\"{.num t}\"") ++ t!" />\n"

/-- `InkStroke::to_xml`, src/generator/slide_content/ink_annotations.rs 136-144. -/
def Stroke.trace (i : Nat) (s : Stroke) : List Part :=
  t!"<ink:trace contextRef=\"#{.num i}\" brushRef=\"#br{.num i}\" id=\"{.num i}\">{.raw s.pointsText}</ink:trace>"

/-- The elements written for strokes numbered from `i`. -/
def eachFrom (f : Nat → Stroke → List Part) : Nat → List Stroke → List Part
  | _, [] => []
  | i, s :: l => f i s ++ eachFrom f (i + 1) l

/-- The elements of an ink part, src/generator/slide_content/ink_annotations.rs 188-211. -/
def inkBody (l : List Stroke) : List Part :=
  t!"<ink:ink xmlns:ink=\"http://www.w3.org/2003/InkML\">" ++ eachFrom Stroke.brush 0 l ++ eachFrom Stroke.trace 0 l
    ++ t!"</ink:ink>"

/-- `InkAnnotations::part_xml`, src/generator/slide_content/ink_annotations.rs 183-213. -/
def inkPartXml (l : List Stroke) : Str := if l.isEmpty then [] else xmlDecl ++ fmt (inkBody l)

/-- The reference of a slide to its ink, src/generator/slide_xml/content.rs 79-87. -/
def inkRefXml (rid : Str) : List Part :=
  t!"\n<mc:AlternateContent xmlns:mc=\"http://schemas.openxmlformats.org/markup-compatibility/2006\"><mc:Choice Requires=\"p14\"><p:contentPart xmlns:r=\"http://schemas.openxmlformats.org/officeDocument/2006/relationships\" r:id=\"{.raw rid}\"/></mc:Choice></mc:AlternateContent>"

/-! ### Signature -/

/-- `HashAlgorithm`, src/generator/slide_content/digital_signature.rs 8-14. -/
inductive HashAlgorithm where
  | sha256 | sha384 | sha512 | sha1
deriving DecidableEq, Repr

/-- `HashAlgorithm::uri`, src/generator/slide_content/digital_signature.rs 17-24. -/
def HashAlgorithm.uri : HashAlgorithm → Str
  | .sha256 => c!"http://www.w3.org/2001/04/xmlenc#sha256"
  | .sha384 => c!"http://www.w3.org/2001/04/xmldsig-more#sha384"
  | .sha512 => c!"http://www.w3.org/2001/04/xmlenc#sha512"
  | .sha1 => c!"http://www.w3.org/2000/09/xmldsig#sha1"

/-- `SignatureCommitment`, src/generator/slide_content/digital_signature.rs 81-86. -/
inductive Commitment where
  | created | approved | reviewed
deriving DecidableEq, Repr

/-- `SignatureCommitment::uri`, src/generator/slide_content/digital_signature.rs 89-95. -/
def Commitment.uri : Commitment → Str
  | .created => c!"http://uri.etsi.org/01903/v1.2.2#ProofOfCreation"
  | .approved => c!"http://uri.etsi.org/01903/v1.2.2#ProofOfApproval"
  | .reviewed => c!"http://uri.etsi.org/01903/v1.2.2#ProofOfReview"

/-- `SignatureCommitment::label`, src/generator/slide_content/digital_signature.rs 97-103. -/
def Commitment.label : Commitment → Str
  | .created => c!"Created"
  | .approved => c!"Approved"
  | .reviewed => c!"Reviewed"

/-- `DigitalSignature` and `SignerInfo`, src/generator/slide_content/digital_signature.rs 38-43 and 71-77. -/
structure Signature where
  name : Str
  email : Option Str := none
  organization : Option Str := none
  title : Option Str := none
  hash : HashAlgorithm := .sha256
  date : Option Str := none
  commitment : Commitment := .created
  comments : Option Str := none
deriving DecidableEq

/-- `DigitalSignature::to_origin_xml`, src/generator/slide_content/digital_signature.rs 138-140. -/
def signatureOriginText : Str := xmlDeclTight ++
  c!"<Relationships xmlns=\"http://schemas.openxmlformats.org/package/2006/relationships\"/>"

/-- The date written, src/generator/slide_content/digital_signature.rs 144. -/
def Signature.when (s : Signature) : Str := s.date.getD c!"2025-01-01T00:00:00Z"

/-- The elements of `_xmlsignatures/sig1.xml`, src/generator/slide_content/digital_signature.rs 143-178. -/
def signatureBody (s : Signature) : List Part :=
  t!"<Signature xmlns=\"http://www.w3.org/2000/09/xmldsig#\"><SignedInfo><CanonicalizationMethod Algorithm=\"http://www.w3.org/TR/2001/REC-xml-c14n-20010315\"/><SignatureMethod Algorithm=\"{.raw s.hash.uri}\"/></SignedInfo><SignatureValue/><KeyInfo><KeyName>{.esc s.name}</KeyName></KeyInfo><Object><SignatureProperties><SignatureProperty Target=\"#SignatureInfo\"><SignatureInfoV1 xmlns=\"http://schemas.microsoft.com/office/2006/digsig\"><SetupID/><SignatureText>{.esc s.name}</SignatureText>"
    ++ whenSome s.comments (fun c => t!"<SignatureComments>{.esc c}</SignatureComments>")
    ++ t!"<SignatureType>1</SignatureType><SignatureProviderUrl/><SignatureProviderDetails>9</SignatureProviderDetails><ManifestHashAlgorithm>{.raw s.hash.uri}</ManifestHashAlgorithm><SignatureProviderId>\x7b\x7b00000000-0000-0000-0000-000000000000}}</SignatureProviderId><CommitmentTypeId>{.raw s.commitment.uri}</CommitmentTypeId><CommitmentTypeQualifier>{.raw s.commitment.label}</CommitmentTypeQualifier><SigningTime>{.raw s.when}</SigningTime></SignatureInfoV1></SignatureProperty></SignatureProperties></Object></Signature>"

/-- `DigitalSignature::to_signature_xml`, src/generator/slide_content/digital_signature.rs 143-178. -/
def signatureText (s : Signature) : Str := xmlDeclTight ++ fmt (signatureBody s)

end PptRs.Settings
