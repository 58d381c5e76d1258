import Verif.Model.Drawing
import Verif.Model.Base64
import Verif.Model.External
import Verif.Model.Units

/-!
# Building images

`src/generator/images.rs`. A crop is given by the numbers that are written for it. Upper and lower
case are those of ASCII. File names do not end in `/`, `/.` or `..`.
-/

namespace PptRs.Img

open PptRs PptRs.Draw

/-- `to_uppercase`. -/
def upper (s : Str) : Str := s.map Char.toUpper
/-- `to_lowercase`. -/
def lower (s : Str) : Str := s.map Char.toLower

/-- `format_and_ext`, src/generator/images.rs 9-16. -/
def formatAndExt (f : Str) : Str × Str := (upper f, if upper f = c!"JPEG" then c!"jpg" else lower (upper f))

/-- `ImageSource`, src/generator/images.rs 27-37; without addresses, which need a feature. -/
inductive Source where
  | file (path : Str)
  | base64 (data : Str)
  | bytes (data : Bytes)
deriving DecidableEq, Repr

/-- `Image`, src/generator/images.rs 74-89. -/
structure Image where
  filename : Str
  width : Nat
  height : Nat
  x : Nat := 0
  y : Nat := 0
  format : Str
  source : Option Source
  crop : Option Crop := none
  effects : List ImageEffect := []
  altText : Option Str := none
deriving DecidableEq, Repr

/-- `Image::new`, src/generator/images.rs 93-106. -/
def Image.new (filename : Str) (width height : Nat) (format : Str) : Image where
  filename := filename
  width := width
  height := height
  format := upper format
  source := some (.file filename)

/-- `Image::from_base64` and `from_bytes` with the name that `generate_image_filename` makes from a
random `uuid`, src/generator/images.rs 19-23 and 151-183. -/
def Image.ofData (uuid : Str) (source : Source) (width height : Nat) (format : Str) : Image where
  filename := c!"image_" ++ uuid ++ c!"." ++ (formatAndExt format).2
  width := width
  height := height
  format := (formatAndExt format).1
  source := some source

/-- `get_bytes`, src/generator/images.rs 192-224; `files` is what can be read. -/
def Image.getBytes (files : Str → Option Bytes) (i : Image) : Option Bytes :=
  match i.source with
  | some (.base64 d) => base64Decode d
  | some (.bytes d) => some d
  | some (.file p) => files p
  | none => none

/-- `Path::extension`. -/
def pathExt (path : Str) : Option Str := External.fileExt (((rsplitOnceChar? '/' path).map (·.2)).getD path)

/-- `extension`, src/generator/images.rs 267-273. -/
def Image.extension (i : Image) : Str := ((pathExt i.filename).map lower).getD (lower i.format)

/-- `mime_type`, src/generator/images.rs 276-286. -/
def Image.mime (i : Image) : Str :=
  if i.format = c!"PNG" then c!"image/png"
  else if i.format = c!"JPG" ∨ i.format = c!"JPEG" then c!"image/jpeg"
  else if i.format = c!"GIF" then c!"image/gif"
  else if i.format = c!"BMP" then c!"image/bmp"
  else if i.format = c!"TIFF" then c!"image/tiff"
  else if i.format = c!"SVG" then c!"image/svg+xml"
  else c!"application/octet-stream"

/-- What is drawn. -/
def Image.picture (i : Image) : Picture where
  filename := i.filename
  x := i.x
  y := i.y
  width := i.width
  height := i.height
  crop := i.crop
  effects := i.effects
  altText := i.altText

/-- `ImageBuilder`, src/generator/images.rs 373-380. -/
structure Builder where
  filename : Str
  width : Nat
  height : Nat
  x : Nat := 0
  y : Nat := 0
  format : Str
  source : Option Source
  effects : List ImageEffect := []
  crop : Option Crop := none
deriving DecidableEq, Repr

/-- `ImageBuilder::new`, src/generator/images.rs 384-399. -/
def Builder.new (filename : Str) (width height : Nat) : Builder where
  filename := filename
  width := width
  height := height
  format := ((pathExt filename).map upper).getD c!"PNG"
  source := some (.file filename)

/-- `from_base64` and `from_bytes`, src/generator/images.rs 415-425 and 441-451. -/
def Builder.ofData (source : Source) (width height : Nat) (format : Str) : Builder where
  filename := c!"image." ++ (formatAndExt format).2
  width := width
  height := height
  format := (formatAndExt format).1
  source := some source

/-- `from_file`, `base64` and `bytes`: with the default size, src/generator/images.rs 409-412, 435-438
and 462-465, and src/core/placement.rs 34-41. -/
def defaultSize : Nat := 1828800

/-- A call of a method of the builder. -/
inductive Call where
  | position (x y : Nat)
  | size (width height : Nat)
  | format (f : Str)
  | scaleToWidth (width : Nat)
  | scaleToHeight (height : Nat)
  | effect (e : ImageEffect)
  | crop (c : Crop)
deriving DecidableEq, Repr

/-- The methods, src/generator/images.rs 498-576. -/
def Builder.call (b : Builder) : Call → Builder
  | .position x y => { b with x := x, y := y }
  | .size w h => { b with width := w, height := h }
  | .format f => { b with format := upper f }
  | .scaleToWidth w => { b with width := w, height := Units.heightFor b.width b.height w }
  | .scaleToHeight h => { b with height := h, width := Units.widthFor b.width b.height h }
  | .effect e => { b with effects := b.effects ++ [e] }
  | .crop c => { b with crop := some c }

/-- `build`, src/generator/images.rs 579-592. -/
def Builder.build (b : Builder) : Image where
  filename := b.filename
  width := b.width
  height := b.height
  x := b.x
  y := b.y
  format := b.format
  source := b.source
  crop := b.crop
  effects := b.effects

/-- `build_with_crop`, src/generator/images.rs 595-608. -/
def Builder.buildWithCrop (b : Builder) (c : Crop) : Image := { b.build with crop := some c, effects := [] }

/-- `build_with_shadow`, `build_with_reflection`, `build_with_effects`, `build_with_glow`,
`build_with_soft_edges`, `build_with_inner_shadow` and `build_with_blur`,
src/generator/images.rs 611-720. -/
def Builder.buildWith (b : Builder) (l : List ImageEffect) : Image := { b.build with crop := none, effects := l }

/-- `generate_image_relationship`, src/generator/images_xml.rs 54-60. -/
def relationshipXml (rel : Nat) (path : Str) : List Part :=
  t!"<Relationship Id=\"rId{.num rel}\" Type=\"http://schemas.openxmlformats.org/officeDocument/2006/relationships/image\" Target=\"{.esc path}\"/>"

/-- The type of an extension, src/generator/images_xml.rs 64-72. -/
def extType (ext : Str) : Str :=
  let e := lower ext
  if e = c!"png" then c!"image/png"
  else if e = c!"jpg" ∨ e = c!"jpeg" then c!"image/jpeg"
  else if e = c!"gif" then c!"image/gif"
  else if e = c!"bmp" then c!"image/bmp"
  else if e = c!"tiff" then c!"image/tiff"
  else if e = c!"svg" then c!"image/svg+xml"
  else c!"application/octet-stream"

/-- `generate_image_content_type`, src/generator/images_xml.rs 63-79. -/
def contentTypeXml (ext : Str) : List Part :=
  t!"<Default Extension=\"{.raw (lower ext)}\" ContentType=\"{.raw (extType ext)}\"/>"

end PptRs.Img
