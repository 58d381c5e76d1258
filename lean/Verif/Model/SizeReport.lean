import Verif.Model.Compress
import Verif.Model.Float
import Verif.Model.Parts

/-!
# The report of a compression and of the sizes in a file

src/opc/compress.rs. The sizes of files are given: how well an archive is packed is not modelled.
-/

namespace PptRs.SizeReport

open PptRs PptRs.Fl

/-- `CompressionLevel`, src/opc/compress.rs 17-27. -/
inductive Level where
  | light | medium | aggressive
  | custom (quality : UInt8)
deriving DecidableEq

/-- `CompressionLevel::image_quality`, src/opc/compress.rs 32-39. -/
def Level.imageQuality : Level → Nat
  | .light => 95
  | .medium => 85
  | .aggressive => 70
  | .custom q => q.toNat

/-- `CompressionLevel::should_resize_images`, src/opc/compress.rs 42-44. -/
def Level.resizes : Level → Bool
  | .aggressive => true
  | .custom _ => true
  | _ => false

/-- `CompressionLevel::max_image_dimension`, src/opc/compress.rs 47-54. -/
def Level.maxDimension : Level → Nat
  | .light => 2048
  | .medium => 1600
  | .aggressive => 1280
  | .custom _ => 1600

/-- `CompressionOptions`, src/opc/compress.rs 59-74. -/
structure Options where
  level : Level
  flags : CompressionOptions
  targetSize : Nat
deriving DecidableEq

/-- `CompressionOptions::default` and `new`, src/opc/compress.rs 76-94. -/
def Options.new : Options := ⟨.medium, ⟨true, false, false, true, true⟩, 0⟩

/-- `CompressionOptions::maximum`, src/opc/compress.rs 139-149. -/
def Options.maximum : Options := ⟨.aggressive, ⟨true, true, true, true, true⟩, 0⟩

/-- `CompressionOptions::web`, src/opc/compress.rs 152-162. -/
def Options.web : Options := ⟨.medium, ⟨true, true, false, true, true⟩, 5242880⟩

/-- A call of a setter. -/
inductive Call where
  | level (l : Level)
  | unusedMedia (b : Bool)
  | properties (b : Bool)
  | notes (b : Bool)
  | comments (b : Bool)
  | xml (b : Bool)
  | target (n : Nat)
deriving DecidableEq

/-- The setters, src/opc/compress.rs 97-136. -/
def Options.call (o : Options) : Call → Options
  | .level l => { o with level := l }
  | .unusedMedia b => { o with flags := { o.flags with removeUnusedMedia := b } }
  | .properties b => { o with flags := { o.flags with removeProperties := b } }
  | .notes b => { o with flags := { o.flags with removeNotes := b } }
  | .comments b => { o with flags := { o.flags with removeComments := b } }
  | .xml b => { o with flags := { o.flags with optimizeXml := b } }
  | .target n => { o with targetSize := n }

/-- A chain of setters. -/
def Options.run (o : Options) (l : List Call) : Options := l.foldl Options.call o

/-- How the crate is built: overflowing subtractions stop the program or wrap around at `2 ^ 64`. -/
inductive Build where
  | debug | release
deriving DecidableEq

/-- `a - b` for `usize`; `none` is a crash. -/
def usizeSub (build : Build) (a b : Nat) : Option Nat :=
  if b ≤ a then some (a - b)
  else
    match build with
    | .debug => none
    | .release => some (a + 18446744073709551616 - b)

/-- `CompressionResult`, src/opc/compress.rs 167-180. -/
structure Result where
  originalSize : Nat
  compressedSize : Nat
  reductionPercent : Val
  unusedMediaRemoved : Nat
  imagesCompressed : Nat
  targetAchieved : Bool

/-- src/opc/compress.rs 239-243; `none` is a crash. -/
def reduction (build : Build) (original compressed : Nat) : Option Val :=
  if original > 0 then
    (usizeSub build original compressed).map fun (s : Nat) =>
      mul b64 (div b64 (mk b64 s) (mk b64 original)) (mk b64 100)
  else some (.fin 0)

/-- `compress_pptx`, src/opc/compress.rs 202-255, with the sizes of the two files: the package saved and the report. -/
def compress (build : Build) (o : Options) (p : Package) (original compressed : Nat) : Package × Option Result :=
  ((compressPackage o.flags p).1, (reduction build original compressed).map fun r =>
    { originalSize := original
      compressedSize := compressed
      reductionPercent := r
      unusedMediaRemoved := (compressPackage o.flags p).2
      imagesCompressed := 0
      targetAchieved := o.targetSize = 0 || decide (compressed ≤ o.targetSize) })

/-- `{:.p}` of a number that is not negative: rounded to the nearest, ties to even. -/
def fixed (p : Nat) (q : Rat) : Str :=
  let n := (nearest (q * 10 ^ p)).toNat
  dec (n / 10 ^ p) ++ c!"." ++ zeroPad p (dec (n % 10 ^ p))

/-- `{:.p}` of a floating point number; negative numbers do not occur. -/
def fixedVal (p : Nat) : Val → Str
  | .nan => c!"NaN"
  | .inf s => if s then c!"-inf" else c!"inf"
  | .fin q => fixed p q

/-- `format_bytes`, src/opc/compress.rs 514-524. -/
def formatBytes (n : Nat) : Str :=
  if n < 1024 then dec n ++ c!" B"
  else if n < 1048576 then fixedVal 1 (div b64 (mk b64 n) (mk b64 1024)) ++ c!" KB"
  else if n < 1073741824 then fixedVal 1 (div b64 (mk b64 n) (mk b64 1048576)) ++ c!" MB"
  else fixedVal 2 (div b64 (mk b64 n) (mk b64 1073741824)) ++ c!" GB"

/-- `PptxAnalysis::summary`, src/opc/compress.rs 486-502, for a file of `total` bytes. -/
def summary (total : Nat) (a : PptxAnalysis) : Str :=
  c!"PPTX Analysis:\n- Total size: " ++ formatBytes total ++ c!"\n- Images: " ++ dec a.imageCount ++ c!" (" ++ formatBytes a.imagesSize ++
    c!" MB)\n- Slides: " ++ dec a.slideCount ++ c!"\n- XML data: " ++ formatBytes a.xmlSize ++ c!"\n- Other media: " ++ dec a.mediaCount ++
    c!" files (" ++ formatBytes a.otherSize ++ c!")"

/-- `PptxAnalysis::images_percentage`, src/opc/compress.rs 505-511. -/
def imagesPercentage (total : Nat) (a : PptxAnalysis) : Val :=
  if total > 0 then mul b64 (div b64 (mk b64 a.imagesSize) (mk b64 total)) (mk b64 100) else .fin 0

end PptRs.SizeReport
