import Verif.Model.ExportFile
import Verif.Props.WholeSources
import Verif.Props.HtmlExport
import Verif.Props.Markdown
import Verif.Props.Pdf

/-!
# C161: the export of files
-/

namespace PptRs.Props

open PptRs PptRs.Spec PptRs.Reader PptRs.Import PptRs.Whole PptRs.ExportFile

/-- A slide in the usual layout with a title and either bullets or a table, all of plain texts that are not only white space, and no
notes. -/
inductive Ordinary : PageIn → Prop
  | bullets {title : Str} {l : List Str} (ht : ¬ BlankText title) (hl : ∀ t ∈ l, ¬ BlankText t) :
      Ordinary { text := l.foldl SlideText.addBullet (SlideText.new title) }
  | table {title : Str} {t : TableIn} (ht : ¬ BlankText title) (hr : ∀ r ∈ t.rows, r.cells ≠ [])
      (hc : ∀ r ∈ t.rows, ∀ c ∈ r.cells, ¬ BlankText c.text ∧ ∃ x : Str, c = { text := x }) (h0 : t.rows ≠ []) :
      Ordinary { text := { SlideText.new title with table := some t } }

theorem seenTexts_plain {t : TableIn} (hr : ∀ r ∈ t.rows, r.cells ≠ [])
    (hc : ∀ r ∈ t.rows, ∀ c ∈ r.cells, ¬ BlankText c.text ∧ ∃ x : Str, c = { text := x }) : seenTexts t = tableTexts t := by
  unfold seenTexts tableTexts
  rw [List.filter_eq_self.mpr]
  · refine List.map_congr_left fun r h => List.map_congr_left fun c h' => ?_
    obtain ⟨hb, x, rfl⟩ := hc r h c h'
    simp only [visible]
    rw [if_neg (by decide), if_neg hb]
  · intro x hx
    obtain ⟨r, h, rfl⟩ := List.mem_map.mp hx
    simpa using hr r h

theorem tableTexts_of (rows : List (List Str)) : tableTexts (tableOfTexts rows) = rows := by
  simp [tableTexts, tableOfTexts, List.map_map, Function.comp_def]

/-- What is opened of an ordinary slide: everything, but the columns of a table have another width. -/
theorem ordinary_opened {s : PageIn} (h : Ordinary s) :
    ({ text := (expectedSlide s.text).text } : PageIn) =
      { text := { s.text with table := s.text.table.map fun t => tableOfTexts (tableTexts t) } } ∧ s.notes = none := by
  refine ⟨?_, by cases h <;> rfl⟩
  cases h with
  | bullets ht hl =>
    rename_i title l
    congr 1
    have e : l.foldl SlideText.addBullet (SlideText.new title) = plainSlide title l none := by
      rw [addBullets_eq]; rfl
    rw [e]
    show plainSlide (visible title) (List.filter _ _) _ = plainSlide title l none
    rw [plainSlide_texts, List.filter_eq_self.mpr fun t h => by simpa using hl t h, visible, if_neg ht]
    rfl
  | table ht hr hc h0 =>
    rename_i title t
    congr 1
    show plainSlide (visible title) _ ((Option.filter _ (some t)).map _) = _
    have hs := seenTexts_plain hr hc
    have hn : seenTexts t ≠ [] := by
      rw [hs]
      simpa [tableTexts] using h0
    rw [visible, if_neg ht]
    have e : Option.filter (fun t => decide (seenTexts t ≠ [])) (some t) = some t := by simp [Option.filter, hn]
    rw [e, Option.map_some, hs]
    rfl

theorem plain_readable (title : Str) (l : List Str) :
    let s := l.foldl SlideText.addBullet (SlideText.new title)
    s.Safe ∧ SmallNumbers s ∧ s.extra = [] := by
  have h := addBullets_readable title l none .titleAndContent (by simp)
  rw [addBullets_eq] at h ⊢
  exact h

/-- Slides of texts and plain tables are readable. -/
theorem ordinary_readable {l : List PageIn} (h : ∀ s ∈ l, Ordinary s) : Readable l := by
  intro s hs
  cases h s hs with
  | bullets ht hl => exact plain_readable _ _
  | table ht hr hc h0 =>
    refine addBullets_readable _ [] (some _) .titleAndContent ?_
    intro t ht r hr c hc'
    rw [← Option.some.inj ht] at hr
    exact (hc r hr c hc').2

theorem ordinary_html {s : PageIn} (h : Ordinary s) : htmlSlide { text := (expectedSlide s.text).text } = htmlSlide s := by
  rw [(ordinary_opened h).1]
  unfold htmlSlide
  simp only [(ordinary_opened h).2, Option.map_map, Function.comp_def, tableTexts_of]

theorem ordinary_md {s : PageIn} (h : Ordinary s) : mdSlideOf { text := (expectedSlide s.text).text } = mdSlideOf s := by
  rw [(ordinary_opened h).1]
  unfold mdSlideOf
  simp only [(ordinary_opened h).2, Option.map_map, Function.comp_def, tableTexts_of]

theorem renderSlide_table (P : Pdf.Printer) (g : Pdf.Page) (s : SlideText) (t : Option TableIn) (codes : List Str) (num total : Nat) :
    Pdf.renderSlide P g { s with table := t } codes num total = Pdf.renderSlide P g s codes num total := by
  have h0 : ∀ t : Option TableIn, Pdf.renderSlide P g { s with table := t } codes num total =
      Pdf.renderSlide P g { s with table := none } codes num total := by
    intro t
    cases t with
    | none => rfl
    | some t => exact C106_violated_table P g s t codes num total
  rw [h0 t, ← h0 s.table]

theorem addPages_congr {P : Pdf.Printer} {pg : Pdf.Page} {total : Nat} {fonts : List (Str × Nat)} {parent : Nat} (f : SlideText → SlideText)
    (l : List SlideText) (h : ∀ s ∈ l, ∀ n, Pdf.renderSlide P pg (f s) [] n total = Pdf.renderSlide P pg s [] n total) (g : Pdf.Gen) (i : Nat) :
    Pdf.addPages P pg total fonts parent g i (l.map fun s => (f s, [])) = Pdf.addPages P pg total fonts parent g i (l.map fun s => (s, [])) := by
  induction l generalizing g i with
  | nil => rfl
  | cons s l ih =>
    simp only [List.map_cons, Pdf.addPages, h s (.head _), ih (fun s hs => h s (.tail _ hs))]

theorem renderToPdf_congr {P : Pdf.Printer} {pg : Pdf.Page} {start : Nat} (f : SlideText → SlideText)
    (l : List SlideText) (h : ∀ s ∈ l, ∀ n k, Pdf.renderSlide P pg (f s) [] n k = Pdf.renderSlide P pg s [] n k) :
    Pdf.renderToPdf P pg start (l.map fun s => (f s, [])) = Pdf.renderToPdf P pg start (l.map fun s => (s, [])) := by
  unfold Pdf.renderToPdf
  simp only [List.map_eq_nil_iff, List.length_map, addPages_congr f l (fun s hs n => h s hs n _)]

/-- What is opened of a written file, as slides. -/
theorem loaded_written (secs : Nat) {title : Str} {l : List PageIn} {st : BuildSettings} (desc : Str → Str)
    (other : PartName → Bytes) (ht : st.template = none) (hf : st.fonts = none) (h0 : l ≠ []) (hn : l.length + 1 < 4294967296)
    (hs : Readable l) (h1 : '&' ∉ title) (h2 : '<' ∉ title) :
    (opened (written secs title l st desc other)).map (fun p => (p.title, loadedPages p)) =
      some (visible title, l.map fun s => { text := (expectedSlide s.text).text }) := by
  rw [C144_open_partial secs desc other ht hf h0 hn hs h1 h2]
  simp [loadedPages, List.map_map, Function.comp_def]

theorem exported_of {α : Type} {file : List (Str × Bytes)} {title : Str} {l : List PageIn} (f : Str → List PageIn → α)
    (h : (opened file).map (fun p => (p.title, loadedPages p)) = some (title, l)) :
    (opened file).map (fun p => f p.title (loadedPages p)) = some (f title l) := by
  have := congrArg (Option.map fun x => f x.1 x.2) h
  simpa only [Option.map_map, Function.comp_def, Option.map_some] using this

theorem exported_ordinary (secs : Nat) {title : Str} {l : List PageIn} {st : BuildSettings} (desc : Str → Str)
    (other : PartName → Bytes) (ht : st.template = none) (hf : st.fonts = none) (h0 : l ≠ []) (hn : l.length + 1 < 4294967296)
    (hs : ∀ s ∈ l, Ordinary { text := s.text }) (h1 : '&' ∉ title) (h2 : '<' ∉ title) (hb : ¬ BlankText title) :
    (∀ a o, exportedHtml a o (written secs title l st desc other) = some (pageHtml a o title (l.map fun s => { text := s.text }))) ∧
    (∀ ext o, exportedMd ext o (written secs title l st desc other) = some (pageMd ext o title (l.map fun s => { text := s.text }))) ∧
    (∀ P g start, exportedPdf P g start (written secs title l st desc other) = some (pagePdf P g start l)) := by
  have hr : Readable l := by
    intro s h
    refine ordinary_readable (l := [{ text := s.text }]) ?_ { text := s.text } (.head _)
    intro x hx
    rw [List.mem_singleton] at hx
    rw [hx]
    exact hs s h
  have h := loaded_written secs desc other ht hf h0 hn hr h1 h2
  rw [visible, if_neg hb] at h
  refine ⟨fun a o => ?_, fun ext o => ?_, fun P g start => ?_⟩
  · refine (exported_of (pageHtml a o) h).trans ?_
    unfold pageHtml
    rw [List.map_map, List.map_map]
    exact congrArg (fun x => some (HtmlExport.exportHtml a o title x)) (List.map_congr_left fun s h => ordinary_html (hs s h))
  · refine (exported_of (pageMd ext o) h).trans ?_
    unfold pageMd
    rw [List.map_map, List.map_map]
    exact congrArg (fun x => some (exportMarkdown ext o title x)) (List.map_congr_left fun s h => ordinary_md (hs s h))
  · refine (exported_of (fun _ => pagePdf P g start) h).trans ?_
    unfold pagePdf
    rw [List.map_map]
    have := renderToPdf_congr (P := P) (pg := g) (start := start)
      (fun s => { s with table := s.table.map fun t => tableOfTexts (tableTexts t) }) (l.map (·.text))
      (fun s _ n k => renderSlide_table P g s _ [] n k)
    rw [List.map_map, List.map_map] at this
    refine congrArg some (Eq.trans (congrArg _ ?_) this)
    refine List.map_congr_left fun s h => ?_
    have e := congrArg PageIn.text (ordinary_opened (hs s h)).1
    simp only [Function.comp_def] at e ⊢
    rw [e]

/-- **C161, for ordinary slides.** Exporting a saved presentation, to HTML, Markdown or PDF, with any options, gives exactly what
exporting the presentation itself gives. Ordinary slides have a title and bullets or a table of plain texts; what is missing is in
the theorems below. -/
theorem C161_same_partial (secs : Nat) {title : Str} {l : List PageIn} {st : BuildSettings} (desc : Str → Str)
    (other : PartName → Bytes) (ht : st.template = none) (hf : st.fonts = none) (h0 : l ≠ []) (hn : l.length + 1 < 4294967296)
    (hs : ∀ s ∈ l, Ordinary s) (h1 : '&' ∉ title) (h2 : '<' ∉ title) (hb : ¬ BlankText title) :
    (∀ a o, exportedHtml a o (written secs title l st desc other) = some (pageHtml a o title l)) ∧
    (∀ ext o, exportedMd ext o (written secs title l st desc other) = some (pageMd ext o title l)) ∧
    (∀ P g start, exportedPdf P g start (written secs title l st desc other) = some (pagePdf P g start l)) := by
  have e : ∀ s ∈ l, ({ text := s.text } : PageIn) = s := by
    intro s h
    have := (ordinary_opened (hs s h)).2
    cases s
    cases this
    rfl
  have hl : l.map (fun s => ({ text := s.text } : PageIn)) = l := (List.map_congr_left e).trans (List.map_id' _)
  have := exported_ordinary secs desc other ht hf h0 hn (fun s h => (e s h).symm ▸ hs s h) h1 h2 hb
  rwa [hl] at this

/-- **C161, the page.** A browser finds in the page that is exported from a saved presentation without tables its title and, for each
slide in order, its number, its title and its bullets, if none of the texts has `<` or `&`. -/
theorem C161_browser_partial (secs : Nat) {title : Str} {l : List (Str × List Str)} {st : BuildSettings} (desc : Str → Str)
    (other : PartName → Bytes) (ht : st.template = none) (hf : st.fonts = none) (h0 : l ≠ []) (hn : l.length + 1 < 4294967296)
    (hs : ∀ s ∈ l, ¬ BlankText s.1 ∧ PlainText s.1 ∧ ∀ t ∈ s.2, ¬ BlankText t ∧ PlainText t) (hp : PlainText title)
    (hb : ¬ BlankText title) (a : HtmlExport.Assets) (ha : AssetsRaw a) (o : HtmlExport.Options) (ho : o.files = false) :
    ∃ page, exportedHtml a o (written secs title (l.map fun s => { text := s.2.foldl SlideText.addBullet (SlideText.new s.1) }) st desc other)
        = some page ∧
      Page.read page = toksL (pageTree a o title (l.map fun s => { title := s.1, content := s.2 })) := by
  have e : ∀ s : Str × List Str, htmlSlide { text := s.2.foldl SlideText.addBullet (SlideText.new s.1) } = { title := s.1, content := s.2 } := by
    intro s
    unfold htmlSlide
    rw [addBullets_eq]
    rfl
  refine ⟨_, (C161_same_partial secs desc other ht hf (by simpa using h0) (by simpa using hn) ?_ hp.2 hp.1 hb).1 a o, ?_⟩
  · intro s h
    obtain ⟨x, hx, rfl⟩ := List.mem_map.mp h
    exact .bullets (hs x hx).1 fun t ht => ((hs x hx).2.2 t ht).1
  · unfold pageHtml
    rw [List.map_map]
    have : (htmlSlide ∘ fun s : Str × List Str => ({ text := s.2.foldl SlideText.addBullet (SlideText.new s.1) } : PageIn)) =
        fun s => { title := s.1, content := s.2 } := funext e
    rw [this]
    refine C119_page_partial a ha o ho title _ hp ?_
    intro s h
    obtain ⟨x, hx, rfl⟩ := List.mem_map.mp h
    exact ⟨(hs x hx).2.1, fun t ht => ((hs x hx).2.2 t ht).2, rfl, by simp, by simp⟩

/-- **C161, Markdown.** The Markdown exported from a saved presentation has one section for each slide, with its number and title,
in order. -/
theorem C161_headings_partial (secs : Nat) {title : Str} {l : List PageIn} {st : BuildSettings} (desc : Str → Str)
    (other : PartName → Bytes) (ht : st.template = none) (hf : st.fonts = none) (h0 : l ≠ []) (hn : l.length + 1 < 4294967296)
    (hs : ∀ s ∈ l, Ordinary s ∧ '\n' ∉ s.text.title) (h1 : '&' ∉ title) (h2 : '<' ∉ title) (h3 : '\n' ∉ title) (hb : ¬ BlankText title)
    (ext : Str → Str) :
    ∃ md, exportedMd ext mdDefault (written secs title l st desc other) = some md ∧
      mdHeadings md = l.zipIdx.map fun x => c!"## Slide " ++ dec (x.2 + 1) ++ c!": " ++ escapeMarkdown x.1.text.title := by
  refine ⟨_, (C161_same_partial secs desc other ht hf h0 hn (fun s h => (hs s h).1) h1 h2 hb).2.1 ext mdDefault, ?_⟩
  unfold pageMd
  rw [C78_headings_partial ext mdDefault title _ (by decide) h3]
  · rw [List.zipIdx_map, List.map_map]
    rfl
  · intro s h
    obtain ⟨x, hx, rfl⟩ := List.mem_map.mp h
    exact ⟨(hs x hx).2, by simp [mdSlideOf], by simp [mdSlideOf], by simp [mdSlideOf]⟩

/-- **C161, PDF.** The export of a saved presentation to PDF succeeds: there is a page for every slide. -/
theorem C161_pdf_partial (secs : Nat) {title : Str} {l : List PageIn} {st : BuildSettings} (desc : Str → Str)
    (other : PartName → Bytes) (ht : st.template = none) (hf : st.fonts = none) (h0 : l ≠ []) (hn : l.length + 1 < 4294967296)
    (hs : ∀ s ∈ l, Ordinary s) (h1 : '&' ∉ title) (h2 : '<' ∉ title) (hb : ¬ BlankText title) (P : Pdf.Printer) (g : Pdf.Page) (start : Nat) :
    ∃ r, exportedPdf P g start (written secs title l st desc other) = some (.ok r) ∧ PdfOk P g start (l.map fun s => (s.text, [])) r := by
  have : ∃ r, pagePdf P g start l = .ok r := by
    refine C107_no_panic (by simpa using h0) fun j hj => ?_
    have hj' : j < l.length := by simpa using hj
    have hm := hs l[j] (List.getElem_mem hj')
    simp only [List.getElem_map]
    have key : ∀ s, Ordinary s → s.text.titleColor = none ∧ s.text.contentColor = none ∧ ∀ b ∈ s.text.bullets, b.format = none := by
      intro s hm
      cases hm with
      | bullets ht hl =>
        rw [addBullets_eq]
        refine ⟨rfl, rfl, fun b hb => ?_⟩
        simp only [SlideText.new, List.nil_append, List.mem_map] at hb
        obtain ⟨t, _, rfl⟩ := hb
        rfl
      | table => exact ⟨rfl, rfl, by simp [SlideText.new]⟩
    have e := key _ hm
    refine C106_no_panic (by simp [e.1]) (by simp [e.2.1]) fun b hb c hc => ?_
    rw [e.2.2 b hb] at hc
    cases hc
  obtain ⟨r, hr⟩ := this
  refine ⟨r, ?_, C107_partial hr⟩
  rw [(C161_same_partial secs desc other ht hf h0 hn hs h1 h2 hb).2.2 P g start, hr]

/-! ### What is lost on the way through a file -/

/-- **C161 does not hold in full.** The speaker notes of a saved presentation are not exported, although those of a presentation that
was not saved are: notes are not loaded. The exported files are the same whatever notes the slides have. -/
theorem C161_notes_violated (secs : Nat) {title : Str} {l : List PageIn} {st : BuildSettings} (desc : Str → Str)
    (other : PartName → Bytes) (ht : st.template = none) (hf : st.fonts = none) (h0 : l ≠ []) (hn : l.length + 1 < 4294967296)
    (hs : ∀ s ∈ l, Ordinary { text := s.text }) (h1 : '&' ∉ title) (h2 : '<' ∉ title) (hb : ¬ BlankText title) :
    (∀ a o, exportedHtml a o (written secs title l st desc other) = some (pageHtml a o title (l.map fun s => { s with notes := none }))) ∧
    (∀ ext o, exportedMd ext o (written secs title l st desc other) = some (pageMd ext o title (l.map fun s => { s with notes := none }))) ∧
    pageMd id mdDefault c!"T" [{ text := SlideText.new c!"A", notes := some c!"say this" }] ≠
      pageMd id mdDefault c!"T" [{ text := SlideText.new c!"A", notes := none }] := by
  have := exported_ordinary secs desc other ht hf h0 hn hs h1 h2 hb
  exact ⟨this.1, this.2.1, by decide +kernel⟩

/-- **C161 does not hold in full.** Numbered bullets, indented bullets, colours, sizes and centred titles of a saved presentation are
exported as plain bullets and plain titles at the left: of a slide only the texts are loaded. Exported as it is, the presentation has
the numbers in the PDF. -/
theorem C161_style_violated (secs : Nat) {title : Str} {l : List PageIn} {st : BuildSettings} (desc : Str → Str)
    (other : PartName → Bytes) (ht : st.template = none) (hf : st.fonts = none) (h0 : l ≠ []) (hn : l.length + 1 < 4294967296)
    (hr : Readable l) (h1 : '&' ∉ title) (h2 : '<' ∉ title)
    (hs : ∀ s ∈ l, s.text.layout = .titleAndContent ∧ s.text.table = none ∧ ¬ BlankText s.text.title ∧ ∀ t ∈ s.text.texts, ¬ BlankText t)
    (P : Pdf.Printer) (g : Pdf.Page) (start : Nat) :
    exportedPdf P g start (written secs title l st desc other) =
      some (pagePdf P g start (l.map fun s => { text := s.text.texts.foldl SlideText.addBullet (SlideText.new s.text.title) })) ∧
    Pdf.bulletPrefix .number 0 = c!"1." ∧ Pdf.bulletPrefix .bullet 0 = c!"•" := by
  refine ⟨?_, by decide, by decide⟩
  refine (exported_of (fun _ => pagePdf P g start) (loaded_written secs desc other ht hf h0 hn hr h1 h2)).trans ?_
  refine congrArg some (congrArg (pagePdf P g start) (List.map_congr_left fun s h => ?_))
  obtain ⟨e1, e2, e3, e4⟩ := hs s h
  congr 1
  unfold expectedSlide
  rw [e1, e2, addBullets_eq]
  have : showsBullets s.text = true := by
    unfold showsBullets
    rw [e1, e2]
    rfl
  rw [this, if_pos rfl, List.filter_eq_self.mpr fun t h => by simpa using e4 t h, visible, if_neg e3]
  rfl

/-! ### Examples -/

/-- Two slides, with bullets and with a table. -/
def exportSample : List PageIn :=
  [{ text := [c!"one", c!"two < three"].foldl SlideText.addBullet (SlideText.new c!"First") },
   { text := { SlideText.new c!"Second" with table := some (tableOfTexts [[c!"a", c!"b"], [c!"1", c!"2"]]) } }]

theorem exportSample_ordinary : ∀ s ∈ exportSample, Ordinary s := by
  intro s h
  simp only [exportSample, List.mem_cons, List.not_mem_nil, or_false] at h
  rcases h with rfl | rfl
  · exact .bullets (by decide) (by decide)
  · refine .table (by decide) (by decide) ?_ (by decide)
    intro r hr c hc
    simp only [tableOfTexts, List.map_cons, List.map_nil, List.mem_cons, List.not_mem_nil, or_false] at hr
    rcases hr with rfl | rfl <;> simp only [List.mem_cons, List.not_mem_nil, or_false] at hc <;> rcases hc with rfl | rfl <;>
      exact ⟨by decide, _, rfl⟩

example (secs : Nat) (desc : Str → Str) (other : PartName → Bytes) (ext : Str → Str) :
    exportedMd ext mdDefault (written secs c!"Talk" exportSample .none desc other) =
      some c!"---\ntitle: \"Talk\"\nslides: 2\ngenerator: ppt-rs\n---\n\n# Talk\n\n\n---\n\n## Slide 1: First\n\n- one\n- two \\< three\n\n\n---\n\n## Slide 2: Second\n\n| a | b | \n| --- | --- |\n| 1 | 2 | \n\n" := by
  rw [(C161_same_partial secs desc other rfl rfl (by decide) (by decide) exportSample_ordinary (by decide) (by decide) (by decide)).2.1]
  krfl

/-- A slide with numbers, as `C161_style_violated` has them. -/
example : Readable [{ text := (SlideText.new c!"A").addStyledBullet c!"x" .number }] := by
  intro s h
  rw [List.mem_singleton] at h
  rw [h]
  have hb : ∀ b ∈ ((SlideText.new c!"A").addStyledBullet c!"x" .number).bullets, b = { text := c!"x", style := .number } := by
    simp [SlideText.new, SlideText.addStyledBullet]
  refine ⟨⟨?_, ?_, ?_, ?_, ?_⟩, ⟨?_, ?_, ?_, ?_, ?_⟩, rfl⟩
  · intro c hc; cases hc
  · intro c hc; cases hc
  · intro c hc; cases hc
  · intro b hm
    rw [hb b hm]
    exact ⟨(by intro c hc; cases hc), (by intro f hf; cases hf)⟩
  · intro t hm; cases hm
  · intro n hn; cases hn; decide
  · intro n hn; cases hn; decide
  · intro b hm; rw [hb b hm]; decide
  · intro b hm f hf; rw [hb b hm] at hf; cases hf
  · intro t hm; cases hm

end PptRs.Props
