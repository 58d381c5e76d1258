import Verif.Model.Whole
import Verif.Model.HtmlExport
import Verif.Model.Pdf

/-!
# The export of files

The command `export` and the tool `export_pptx`: src/bin/pptcli.rs 88-130, src/mcp/mod.rs 324-360, src/api.rs 115-136. A file is opened with
`Presentation::from_path` and the presentation is exported with src/export/html.rs, src/export/md.rs or src/export/slide_render.rs.
-/

namespace PptRs.ExportFile

open PptRs PptRs.Import PptRs.Whole

/-- The texts of a table. -/
def tableTexts (t : TableIn) : List (List Str) := t.rows.map fun r => r.cells.map (·.text)

/-- What `export_to_html` uses of a slide with text, a table and notes, src/export/html.rs 122-178. -/
def htmlSlide (s : PageIn) : HtmlExport.Slide where
  title := s.text.title
  content := s.text.content
  table := s.text.table.map tableTexts
  notes := s.notes

/-- What `export_to_markdown` uses of it, src/export/md.rs 107-171. -/
def mdSlideOf (s : PageIn) : MdSlide where
  title := s.text.title
  content := s.text.content
  table := s.text.table.map tableTexts
  images := []
  code := []
  notes := s.notes

/-- `export_to_html_with_options` of a presentation, src/api.rs 121-126. -/
def pageHtml (a : HtmlExport.Assets) (o : HtmlExport.Options) (title : Str) (l : List PageIn) : Str :=
  HtmlExport.exportHtml a o title (l.map htmlSlide)

/-- `export_to_markdown_with_options` of a presentation. -/
def pageMd (ext : Str → Str) (o : MdOptions) (title : Str) (l : List PageIn) : Str := exportMarkdown ext o title (l.map mdSlideOf)

/-- `save_as_pdf` of a presentation, src/api.rs 128-136. -/
def pagePdf (P : Pdf.Printer) (g : Pdf.Page) (start : Nat) (l : List PageIn) : Pdf.Outcome :=
  Pdf.renderToPdf P g start (l.map fun s => (s.text, []))

/-- The slides of an opened presentation, src/import/mod.rs 20-73: there are no notes. -/
def loadedPages (p : Loaded) : List PageIn := p.slides.map fun s => { text := s.text }

/-- A file exported to HTML; `none` is an error. -/
def exportedHtml (a : HtmlExport.Assets) (o : HtmlExport.Options) (file : List (Str × Bytes)) : Option Str :=
  (opened file).map fun p => pageHtml a o p.title (loadedPages p)

/-- A file exported to Markdown. -/
def exportedMd (ext : Str → Str) (o : MdOptions) (file : List (Str × Bytes)) : Option Str :=
  (opened file).map fun p => pageMd ext o p.title (loadedPages p)

/-- A file exported to PDF. -/
def exportedPdf (P : Pdf.Printer) (g : Pdf.Page) (start : Nat) (file : List (Str × Bytes)) : Option Pdf.Outcome :=
  (opened file).map fun p => pagePdf P g start (loadedPages p)

end PptRs.ExportFile
