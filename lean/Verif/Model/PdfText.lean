import Verif.Model.TextConv
import Verif.Model.DebugCheck

/-!
# PDF by way of Markdown, and the measures of generated files

src/export/pdf_export.rs: the program `pdfrs`, which reads Markdown and writes PDF, is a parameter. Sizes of fonts are in
thousandths of a point. src/generator/memory_profile.rs: lengths are natural numbers; the time that is measured is left out.
-/

namespace PptRs.PdfText

open PptRs PptRs.Full

/-- `PdfOrientation`, src/export/pdf_export.rs 38-42. -/
inductive Orientation where
  | portrait | landscape
deriving DecidableEq

/-- `PdfExportOptions` with its defaults, src/export/pdf_export.rs 46-74. -/
structure Options where
  orientation : Orientation := .portrait
  font : Str := c!"Helvetica"
  fontSize : Int := 12000
  frontmatter : Bool := true
  notes : Bool := true
  images : Bool := true
deriving DecidableEq

/-- `with_orientation`, src/export/pdf_export.rs 83-86. -/
def Options.withOrientation (o : Options) (x : Orientation) : Options := { o with orientation := x }

/-- `with_font`, src/export/pdf_export.rs 89-92. -/
def Options.withFont (o : Options) (x : Str) : Options := { o with font := x }

/-- `with_font_size`, src/export/pdf_export.rs 95-98. -/
def Options.withFontSize (o : Options) (x : Int) : Options := { o with fontSize := max x 1000 }

/-- `with_frontmatter`, src/export/pdf_export.rs 101-104. -/
def Options.withFrontmatter (o : Options) (x : Bool) : Options := { o with frontmatter := x }

/-- `with_notes`, src/export/pdf_export.rs 107-110. -/
def Options.withNotes (o : Options) (x : Bool) : Options := { o with notes := x }

/-- `with_images`, src/export/pdf_export.rs 113-116. -/
def Options.withImages (o : Options) (x : Bool) : Options := { o with images := x }

/-- `landscape`, src/export/pdf_export.rs 119-121. -/
def Options.landscape : Options := ({} : Options).withOrientation .landscape

/-- The program `pdfrs`: its reader of Markdown, and its writer, which gets the elements, the font, its size and the page. -/
structure Engine (E : Type) where
  parse : Str → E
  generate : E → Str → Int → Orientation → Option Bytes

/-- The options for Markdown, src/export/pdf_export.rs 133-140. -/
def Options.md (o : Options) : MdOptions where
  slideNumbers := true
  separator := c!"---"
  notes := o.notes
  gfmTables := true
  images := o.images
  frontmatter := o.frontmatter

/-- What `export_to_markdown` uses of a slide, src/export/md.rs 107-171. -/
def sheetMd (p : Sheet) : MdSlide where
  title := p.text.title
  content := p.text.content
  table := p.text.table.map fun t => t.rows.map fun r => r.cells.map (·.text)
  images := p.images.map (·.2.ext)
  code := p.codeBlocks.map fun b => (b.language, b.code)
  notes := p.notes

/-- `export_to_pdf_bytes`, src/export/pdf_export.rs 127-151; `none` is an error. `ext` is what becomes of the format of an image
in its name (src/export/md.rs 147). -/
def exportBytes {E : Type} (eng : Engine E) (ext : Str → Str) (o : Options) (title : Str) (l : List Sheet) : Option Bytes :=
  eng.generate (eng.parse (exportMarkdown ext o.md title (l.map sheetMd))) o.font o.fontSize o.orientation

/-- Files by their paths. -/
abbrev Disk := Str → Option Bytes

/-- `export_to_pdf`, src/export/pdf_export.rs 154-162: the bytes returned and the files afterwards. `writable` says where files can be
written. -/
def exportFile {E : Type} (eng : Engine E) (ext : Str → Str) (writable : Str → Bool) (o : Options) (title : Str) (l : List Sheet)
    (path : Str) (d : Disk) : Option Bytes × Disk :=
  match exportBytes eng ext o title l with
  | none => (none, d)
  | some b => if writable path then (some b, fun p => if p = path then some b else d p) else (none, d)

/-! ### Measures -/

/-- `estimate_slide_payload`, src/generator/memory_profile.rs 26-33. -/
def payload (l : List Sheet) : Nat :=
  l.foldl (fun total p => total + utf8Len p.text.title + (p.text.bullets.map fun b => utf8Len b.text).sum + (p.notes.map utf8Len).getD 0) 0

/-- `usize::MAX`. -/
def usizeMax : Nat := 18446744073709551615

/-- `saturating_mul`. -/
def satMul (a b : Nat) : Nat := min (a * b) usizeMax

/-- An addition in a debug build; `none` is a panic. -/
def addU (a b : Nat) : Option Nat := if a + b ≤ usizeMax then some (a + b) else none

/-- The sizes of images whose bytes can be had, src/generator/memory_profile.rs 46-50. -/
def addImages : Nat → List (Draw.Picture × ImageIn) → Option Nat
  | n, [] => some n
  | n, i :: is =>
    match i.2.bytes with
    | some b => (addU n b.length).bind fun n => addImages n is
    | none => addImages n is

/-- The loop over the slides, src/generator/memory_profile.rs 44-51. -/
def addSheets : Nat → List Sheet → Option Nat
  | n, [] => some n
  | n, p :: ps => (addU n (satMul p.charts.length 8192)).bind fun n => (addImages n p.images).bind fun n => addSheets n ps

/-- `estimate_output_capacity`, src/generator/memory_profile.rs 36-55, in a debug build. -/
def capacity (count : Nat) (l : Option (List Sheet)) : Option Nat :=
  (addU 32768 (satMul count 4096)).bind fun cap =>
    match l with
    | none => some (max cap 8192)
    | some l => (addU cap (payload l)).bind fun cap => (addSheets cap l).map fun cap => max cap 8192

/-- `GenerationMetrics` without the time, src/generator/memory_profile.rs 11-16. -/
structure Metrics where
  slideCount : Nat
  outputBytes : Nat
  payloadBytes : Nat
deriving DecidableEq

/-- `bytes_per_slide`, src/generator/memory_profile.rs 20-22. -/
def Metrics.bytesPerSlide (m : Metrics) : Nat := if m.slideCount = 0 then 0 else m.outputBytes / m.slideCount

/-- `profile_eager_generation` and `profile_lazy_generation`, src/generator/memory_profile.rs 58-71 and 88-105: `create` is the
function that is measured. `none` is a panic. -/
def profile (create : Str → List Sheet → Option Bytes) (title : Str) (l : List Sheet) : Option Metrics :=
  (create title l).map fun b => ⟨l.length, b.length, payload l⟩

/-- `sample_slides`, src/generator/memory_profile.rs 108-119. -/
def sampleSheets (count : Nat) : List Sheet :=
  (List.range count).map fun i =>
    { text := ((SlideText.new (c!"Slide " ++ dec i)).addBullet (c!"Bullet A on slide " ++ dec i)).addBullet (c!"Bullet B on slide " ++ dec i) }

end PptRs.PdfText
