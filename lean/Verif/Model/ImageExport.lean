import Verif.Model.External

/-!
# Slides as pictures

src/export/image_export.rs. The program that draws the pictures (`soffice`) is a parameter.
-/

namespace PptRs.ImageExport

open PptRs PptRs.External

/-- `ImageFormat`, src/export/image_export.rs 16-22. -/
inductive Format where
  | png | jpeg
deriving DecidableEq

/-- `ImageFormat::extension`, src/export/image_export.rs 26-31. -/
def Format.ext : Format → Str
  | .png => c!"png"
  | .jpeg => c!"jpg"

/-- `ImageExportOptions`, src/export/image_export.rs 45-71. -/
structure Options where
  format : Format := .png
  dpi : Nat := 150
  jpegQuality : Nat := 90
  width : Nat := 0
  height : Nat := 0
  slideNumber : Nat := 0
deriving DecidableEq

/-- `high_quality`, src/export/image_export.rs 111-120. -/
def Options.highQuality : Options := { dpi := 300, jpegQuality := 95 }

/-- `web_optimized`, src/export/image_export.rs 123-132. -/
def Options.webOptimized : Options := { format := .jpeg, dpi := 96, jpegQuality := 85 }

/-- The methods that change options, src/export/image_export.rs 80-108. -/
inductive Call where
  | format (f : Format)
  | dpi (n : Nat)
  | quality (n : Nat)
  | dimensions (w h : Nat)
  | slide (n : Nat)
deriving DecidableEq

/-- What they do, src/export/image_export.rs 80-108. -/
def Options.set (o : Options) : Call → Options
  | .format f => { o with format := f }
  | .dpi n => { o with dpi := n }
  | .quality n => { o with jpegQuality := min n 100 }
  | .dimensions w h => { o with width := w, height := h }
  | .slide n => { o with slideNumber := n }

/-- `ImageFormat::mime_type`, src/export/image_export.rs 34-39. -/
def Format.mime : Format → Str
  | .png => c!"image/png"
  | .jpeg => c!"image/jpeg"

/-- The files in a folder. -/
abbrev Folder := List (Str × Bytes)

/-- The arguments of `soffice`, src/export/image_export.rs 227-236. -/
def command (o : Options) (dir pptx : Str) : List Str :=
  [c!"--headless", c!"--convert-to", o.format.ext ++ c!":ExportNotesPages=false", c!"--outdir", dir, pptx]

/-- `digits.parse::<usize>()` for a text of digits. -/
def parseDigits (s : Str) : Option Nat :=
  if s ≠ [] ∧ Nat.ofDigitChars 10 s 0 < 18446744073709551616 then some (Nat.ofDigitChars 10 s 0) else none

/-- `extract_slide_number`, src/export/image_export.rs 284-293. -/
def numberOf (name : Str) : Nat := (parseDigits ((fileStem name).filter isDig)).getD 0

/-- Whether a file is taken for a picture of this export, src/export/image_export.rs 253-264. -/
def isImage (o : Options) (name : Str) : Bool :=
  match fileExt name with
  | some e => e.map Char.toLower = o.format.ext && (startsWith c!"temp_export" (fileStem name) || startsWith c!"Slide" (fileStem name))
  | none => false

/-- src/export/image_export.rs 252-275: the folder is read in any order. -/
def collect (o : Options) (names : List Str) : List Str := sortByKey numberOf (names.filter (isImage o))

/-- What the system does: is the presentation saved, are the folders made, is `soffice` started and successful (`none`: it is not
there), what it leaves in the folder, and which folders can be listed. -/
structure World where
  saved : Bool
  made : Bool
  tool : Option Bool
  convert : List Str → Folder → Folder
  listable : Str → Bool

/-- `export_to_images`, src/export/image_export.rs 146-166 with 211-276: the names of the pictures (`none` is an error) and the folder
afterwards. The temporary file has always the same name. -/
def exportImages (w : World) (o : Options) (tempDir dir : Str) (f : Folder) : Option (List Str) × Folder :=
  if !w.saved || !w.made then (none, f)
  else
    match w.tool with
    | none => (none, f)
    | some ok =>
      let g := w.convert (command o dir (tempDir ++ c!"/temp_export.pptx")) f
      if ok && w.listable dir then (some (collect o (g.map (·.1))), g) else (none, g)

/-- `output_path.parent()`, src/export/image_export.rs 186-189: the empty path for a plain name. -/
def outDir (path : Str) : Str :=
  match rsplitOnceChar? '/' path with
  | some (a, _) => if a = [] then c!"/" else a
  | none => []

/-- `output_path.file_name()`. -/
def outName (path : Str) : Str := ((rsplitOnceChar? '/' path).map (·.2)).getD path

/-- `std::fs::rename` within a folder. -/
def rename (f : Folder) (a b : Str) : Folder :=
  match f.lookup a with
  | some d => (b, d) :: f.filter fun e => e.1 ≠ a && e.1 ≠ b
  | none => f

/-- src/export/image_export.rs 194-197: the picture of a slide among those found. -/
def pick (o : Options) (n : Nat) (names : List Str) : Option Str :=
  names.find? fun x => x = c!"Slide" ++ dec n ++ c!"." ++ o.format.ext || containsStr (c!"Slide" ++ dec n) x

/-- `export_slide_to_image`, src/export/image_export.rs 169-208, for a presentation of `count` slides: whether a picture was exported,
and the folder afterwards. Renaming is taken to succeed. -/
def exportSlide (w : World) (o : Options) (tempDir : Str) (count n : Nat) (path : Str) (f : Folder) : Bool × Folder :=
  if n = 0 || n > count then (false, f)
  else
    match exportImages w { o with slideNumber := n } tempDir (outDir path) f with
    | (none, g) => (false, g)
    | (some names, g) =>
      match pick o n names with
      | none => (false, g)
      | some x => (true, if x = outName path then g else rename g x (outName path))

/-- `render_thumbnail`, src/export/image_export.rs 296-314. -/
def thumbnail (w : World) (tempDir : Str) (count : Nat) (path : Str) (width : Nat) (f : Folder) : Bool × Folder :=
  exportSlide w { format := .png, dpi := width / 10, slideNumber := 1 } tempDir count 1 path f

end PptRs.ImageExport
