import Verif.Model.Handlers
import Verif.Props.Import
import Verif.Lemmas.Rels

/-!
# Commands and tools: C112
-/

namespace PptRs.Props

open PptRs PptRs.Spec PptRs.Import PptRs.External PptRs.Handlers PptRs.Draw

/-- The slides on which a list of requests should give. -/
def slidesOf (d : Pres) : List (Str × List Str) := d.slides.map fun s => (s.text.title, s.text.texts)

/-- Whether a command succeeded. -/
def Result.Good (r : Result) : Prop := ∃ t, r.reply = .ok t

theorem saveAs_good {w : World} {d : Pres} {path ok bad : Str} (h : Result.Good (saveAs w d path ok bad)) :
    (saveAs w d path ok bad).reply = .ok ok ∧ (saveAs w d path ok bad).written = [(path, .pptx, d)] ∧ d.slides ≠ [] := by
  obtain ⟨t, ht⟩ := h
  unfold saveAs at ht ⊢
  split at ht
  · cases ht
  · rename_i hd
    rw [if_neg hd]
    split at ht
    · rename_i hw
      rw [if_pos hw]
      exact ⟨rfl, rfl, hd⟩
    · cases ht

theorem saveAs_bad {w : World} {d : Pres} {path ok bad : Str} (h : ¬ Result.Good (saveAs w d path ok bad)) :
    (saveAs w d path ok bad).written = [] := by
  unfold saveAs at h ⊢
  split
  · rfl
  · rename_i hd
    rw [if_neg hd] at h
    split
    · rename_i hw
      rw [if_pos hw] at h
      exact absurd ⟨_, rfl⟩ h
    · rfl

/-- **C112, creating.** A presentation is written with the title and, for every slide asked for, its title and its bullets, in
their order; the answer tells how many. -/
theorem C112_create_partial (w : World) (title path : Str) (slides : List SlideArg) (h : Result.Good (create w title path slides)) :
    ∃ d, (create w title path slides).written = [(path, .pptx, d)] ∧ d.title = title ∧
      slidesOf d = slides.map (fun s => (s.title, s.bullets)) ∧
      (create w title path slides).reply = .ok (c!"Created presentation '" ++ title ++ c!"' with " ++ dec slides.length ++
        c!" slide(s) at: " ++ path) := by
  unfold create at h ⊢
  simp only at h ⊢
  split at h
  · obtain ⟨t, ht⟩ := h; cases ht
  · rename_i hne
    rw [if_neg hne]
    obtain ⟨h1, h2, _⟩ := saveAs_good h
    refine ⟨_, h2, rfl, ?_, ?_⟩
    · simp only [slidesOf, List.map_map]
      refine List.map_congr_left fun s _ => ?_
      simp only [Function.comp_apply]
      rw [addBullets_eq]
      cases hb : s.bullets with
      | nil => rfl
      | cons b l => simp [SlideText.texts, SlideText.new, List.map_map, Function.comp_def]
    · rw [h1]
      simp

/-- **C112, creating.** Nothing is written if the answer is an error, and an empty list of slides is an error. -/
theorem C112_create_error (w : World) (title path : Str) (slides : List SlideArg) :
    (¬ Result.Good (create w title path slides) → (create w title path slides).written = []) ∧ ¬ Result.Good (create w title path []) := by
  refine ⟨?_, (fun ⟨t, ht⟩ => by cases ht)⟩
  intro h
  unfold create at h ⊢
  simp only at h ⊢
  split
  · rfl
  · rename_i hne
    rw [if_neg hne] at h
    exact saveAs_bad h

/-- **C112 does not hold in full.** The layout asked for a slide is ignored: whatever layouts are asked for, the same
presentation is written. -/
theorem C112_layout_violated (w : World) (title path : Str) (slides : List SlideArg) (layout : Option Str) :
    create w title path (slides.map fun s => { s with layout }) = create w title path slides := by
  unfold create
  simp only [List.map_map]
  rfl

/-- **C112, tables.** Every table with at least one column gives a slide with its title, its texts, a bold first row and as
many columns as the first row has cells. -/
theorem C112_tables_partial (w : World) (title path : Str) (tables : List TableArg)
    (h : Result.Good (createWithTables w title path tables)) (hne : ∀ t ∈ tables, t.rows.headD [] ≠ []) :
    ∃ d, (createWithTables w title path tables).written = [(path, .pptx, d)] ∧ d.title = title ∧
      d.slides.length = tables.length ∧
      ∀ (i : Nat) (a : TableArg), tables[i]? = some a → ∃ s, d.slides[i]? = some s ∧ s.text.title = a.title ∧
        ∃ t, s.text.table = some t ∧ t.columnWidths.length = (a.rows.headD []).length ∧
          t.rows.map (fun r => r.cells.map (·.text)) = a.rows ∧
          ∀ (k : Nat) (r : RowIn), t.rows[k]? = some r → ∀ c ∈ r.cells, (c.bold = true ↔ k = 0) := by
  have h2 := (saveAs_good h).2.1
  have e : tableSlides tables = tables.map fun t => { text := { SlideText.new t.title with table := some (argTable t.rows) } } := by
    unfold tableSlides
    clear h h2
    induction tables with
    | nil => rfl
    | cons t l ih =>
      have ht := hne t (by simp)
      have h1 : t.rows ≠ [] := by intro e; rw [e] at ht; exact ht rfl
      have h2 : (t.rows.headD []).length ≠ 0 := by simpa using ht
      rw [List.filterMap_cons, if_neg h1, if_neg h2]
      simp only [List.map_cons]
      rw [ih (fun t ht => hne t (by simp [ht]))]
  refine ⟨_, h2, rfl, by simp [e], ?_⟩
  intro i a ha
  refine ⟨{ text := { SlideText.new a.title with table := some (argTable a.rows) } }, ?_, rfl, argTable a.rows, rfl, by simp [argTable], ?_, ?_⟩
  · show (tableSlides tables)[i]? = _
    rw [e, List.getElem?_map, ha]
    rfl
  · simp only [argTable]
    refine (List.ext_getElem? fun k => ?_)
    rw [List.getElem?_map, List.getElem?_mapIdx]
    cases a.rows[k]? with
    | none => rfl
    | some r => simp [List.map_map, Function.comp_def]
  · intro k r hr c hc
    simp only [argTable, List.getElem?_mapIdx, Option.map_eq_some_iff] at hr
    obtain ⟨row, _, rfl⟩ := hr
    simp only [List.mem_map] at hc
    obtain ⟨t, _, rfl⟩ := hc
    simp

/-- **C112 does not hold in full.** Tables without rows or columns are left out without a word, but counted in the answer:
with one empty table among two the answer speaks of two slides where one was written. -/
theorem C112_table_count_violated (w : World) (hw : w.canWrite .pptx c!"a.pptx" = true) :
    ∃ d, createWithTables w c!"T" c!"a.pptx" [⟨c!"A", []⟩, ⟨c!"B", [[c!"x"]]⟩] =
      { reply := .ok c!"Created presentation with 2 table slide(s) at: a.pptx", written := [(c!"a.pptx", .pptx, d)] } ∧ d.slides.length = 1 := by
  refine ⟨⟨c!"T", tableSlides [⟨c!"A", []⟩, ⟨c!"B", [[c!"x"]]⟩]⟩, ?_, rfl⟩
  unfold createWithTables saveAs
  rw [if_neg (by simp [tableSlides]), if_pos hw]
  rfl

/-- **C112, charts.** Every chart asked for gives a slide with the title, the categories and the series asked for, in their
order. -/
theorem C112_charts_partial (w : World) (title path : Str) (charts : List ChartArg) (h : Result.Good (createWithCharts w title path charts)) :
    ∃ d, (createWithCharts w title path charts).written = [(path, .pptx, d)] ∧ d.title = title ∧
      d.slides.map (fun s => (s.text.title, s.charts.map fun c => (c.1.title, c.1.categories, c.1.series))) =
        charts.map fun c => (c.slideTitle, [(c.chartTitle, c.categories, c.series)]) := by
  obtain ⟨_, h2, _⟩ := saveAs_good h
  refine ⟨_, h2, rfl, ?_⟩
  simp [SlideText.new]

/-- **C112, charts.** Bar, line, pie and area charts are of the type asked for. -/
theorem C112_chart_types : chartTypeOf c!"bar" = .bar ∧ chartTypeOf c!"line" = .line ∧ chartTypeOf c!"pie" = .pie ∧
    chartTypeOf c!"area" = .area := by decide

/-- **C112 does not hold in full.** Every other type of chart asked for, for example a scatter or doughnut chart, becomes a bar
chart without an error. -/
theorem C112_chart_type_violated {s : Str} (h : s ∉ [c!"line", c!"pie", c!"area"]) : chartTypeOf s = .bar := by
  simp only [List.mem_cons, List.not_mem_nil, or_false, not_or] at h
  simp [chartTypeOf, h.1, h.2.1, h.2.2]

theorem loadMore_ok {w : World} {ps : List Str} {d r : Pres} (h : loadMore w d ps = .ok r) :
    ∃ ds, ps.mapM w.load = some ds ∧ r.title = d.title ∧ r.slides = d.slides ++ ds.flatMap (·.slides) := by
  induction ps generalizing d with
  | nil => cases h; exact ⟨[], rfl, rfl, by simp⟩
  | cons p ps ih =>
    unfold loadMore at h
    cases e : w.load p with
    | none => rw [e] at h; cases h
    | some x =>
      rw [e] at h
      obtain ⟨ds, h1, h2, h3⟩ := ih h
      refine ⟨x :: ds, ?_, h2, ?_⟩
      · rw [List.mapM_cons, e, h1]; rfl
      · rw [h3]
        simp [Pres.append]

/-- **C112, merging.** A merged presentation has the title of the first file and the slides of all files in the order of
the files, of which there are at least two; the answer tells how many files and slides. -/
theorem C112_merge (w : World) (inputs : List Str) (path : Str) (h : Result.Good (merge w inputs path)) :
    2 ≤ inputs.length ∧ ∃ ds d, inputs.mapM w.load = some ds ∧ (merge w inputs path).written = [(path, .pptx, d)] ∧
      ds.head?.map (·.title) = some d.title ∧ d.slides = ds.flatMap (·.slides) ∧
      (merge w inputs path).reply = .ok (c!"Merged " ++ dec inputs.length ++ c!" files (" ++ dec d.slides.length ++ c!" total slides) to: " ++ path) := by
  unfold merge at h ⊢
  split at h
  · obtain ⟨t, ht⟩ := h; cases ht
  · rename_i hl
    rw [if_neg hl]
    refine ⟨Nat.le_of_not_lt hl, ?_⟩
    cases inputs with
    | nil => obtain ⟨t, ht⟩ := h; cases ht
    | cons p ps =>
      simp only at h ⊢
      cases e : w.load p with
      | none => rw [e] at h; obtain ⟨t, ht⟩ := h; cases ht
      | some x =>
        rw [e] at h
        simp only at h ⊢
        cases e2 : loadMore w x ps with
        | error q => rw [e2] at h; obtain ⟨t, ht⟩ := h; cases ht
        | ok d =>
          rw [e2] at h
          simp only at h ⊢
          obtain ⟨h1, h2, _⟩ := saveAs_good h
          obtain ⟨ds, g1, g2, g3⟩ := loadMore_ok e2
          refine ⟨x :: ds, d, ?_, h2, ?_, ?_, h1⟩
          · rw [List.mapM_cons, e, g1]; rfl
          · simp [g2]
          · simp [g3]

/-- **C112, merging.** The command does the same as the tool. -/
theorem C112_merge_command (w : World) (first second : Str) (more : List Str) (path : Str) :
    (mergeCommand w first (second :: more) path).written = (merge w (first :: second :: more) path).written := by
  unfold merge mergeCommand
  rw [if_neg (by simp)]
  simp only
  cases w.load first with
  | none => rfl
  | some d =>
    simp only
    cases loadMore w d (second :: more) with
    | error q => rfl
    | ok d =>
      simp only [saveAs]
      split
      · rfl
      · split <;> rfl

/-- **C112, merging.** If a file cannot be loaded, or the answer is an error for another reason, nothing is written. -/
theorem C112_merge_error (w : World) (inputs : List Str) (path : Str) :
    (¬ Result.Good (merge w inputs path) → (merge w inputs path).written = []) ∧
    (∀ p ∈ inputs, w.load p = none → ¬ Result.Good (merge w inputs path)) := by
  refine ⟨?_, ?_⟩
  · intro h
    unfold merge at h ⊢
    split
    · rfl
    · rename_i hl
      rw [if_neg hl] at h
      cases inputs with
      | nil => rfl
      | cons p ps =>
        simp only at h ⊢
        cases e : w.load p with
        | none => rfl
        | some x =>
          rw [e] at h
          simp only at h ⊢
          cases e2 : loadMore w x ps with
          | error q => rfl
          | ok d =>
            rw [e2] at h
            exact saveAs_bad h
  · intro p hp hl hg
    obtain ⟨_, ds, d, h1, _⟩ := C112_merge w inputs path hg
    have : ∀ (l : List Str) (ds : List Pres), l.mapM w.load = some ds → p ∉ l := by
      intro l
      induction l with
      | nil => intro _ _ h; cases h
      | cons a l ih =>
        intro ds hds hm
        rw [List.mapM_cons] at hds
        cases ea : w.load a with
        | none => rw [ea] at hds; cases hds
        | some x =>
          rw [ea] at hds
          cases el : l.mapM w.load with
          | none => rw [el] at hds; cases hds
          | some xs =>
            rcases List.mem_cons.mp hm with rfl | hm
            · rw [hl] at ea; cases ea
            · exact ih xs el hm
    exact this _ _ h1 hp

/-- **C112, exporting.** The tool writes the loaded presentation in the format asked for; for any other name of a format, and if
the file cannot be loaded, it writes nothing and answers with an error. -/
theorem C112_export (w : World) (input path format : Str) :
    (Result.Good (exportTool w input path format) → ∃ f d, (format, f) ∈ [(c!"html", Format.html), (c!"pdf", .pdf), (c!"markdown", .markdown), (c!"png", .png)] ∧
      w.load input = some d ∧ (exportTool w input path format).written = [(path, f, d)]) ∧
    (¬ Result.Good (exportTool w input path format) → (exportTool w input path format).written = []) := by
  unfold exportTool
  cases e : formatOf format with
  | none => exact ⟨(fun ⟨t, ht⟩ => by cases ht), fun _ => rfl⟩
  | some f =>
    cases el : w.load input with
    | none => exact ⟨(fun ⟨t, ht⟩ => by cases ht), fun _ => rfl⟩
    | some d =>
      simp only [exportAs]
      by_cases hw : w.canWrite f path = true
      · rw [if_pos hw]
        refine ⟨fun _ => ⟨f, d, ?_, rfl, rfl⟩, fun h => absurd ⟨_, rfl⟩ h⟩
        unfold formatOf at e
        split at e
        · rename_i h; cases e; subst h; simp
        · split at e
          · rename_i h; cases e; subst h; simp
          · split at e
            · rename_i h; cases e; subst h; simp
            · split at e
              · rename_i h; cases e; subst h; simp
              · cases e
      · rw [if_neg hw]
        exact ⟨(fun ⟨t, ht⟩ => by cases ht), fun _ => rfl⟩

/-- **C112, exporting.** The command writes in the format asked for, or in that of the extension, in any case of letters. -/
theorem C112_export_format_partial (path : Str) :
    (∀ f, exportFormat (some f) path = f) ∧
    (∀ stem ext, path = stem ++ ext → ext.map Char.toLower = c!".pdf" → exportFormat none path = .pdf) ∧
    (∀ stem ext, path = stem ++ ext → ext.map Char.toLower = c!".html" → exportFormat none path = .html) ∧
    (∀ stem ext, path = stem ++ ext → ext.map Char.toLower = c!".png" → exportFormat none path = .png) := by
  have key : ∀ (a b : Str) (s : Str), endsWith a (s ++ b) = true → a.length ≤ b.length → endsWith a b = true := by
    intro a b s h hl
    simp only [endsWith] at h ⊢
    rw [List.isSuffixOf_iff_suffix] at h ⊢
    exact List.suffix_of_suffix_length_le h (List.suffix_append s b) hl
  have self : ∀ (a s : Str), endsWith a (s ++ a) = true := by
    intro a s
    simp only [endsWith]
    rw [List.isSuffixOf_iff_suffix]
    exact List.suffix_append s a
  refine ⟨fun _ => rfl, ?_, ?_, ?_⟩
  · rintro stem ext rfl he
    simp only [exportFormat, Option.getD_none, List.map_append, he]
    rw [if_pos (self ..)]
  · rintro stem ext rfl he
    simp only [exportFormat, Option.getD_none, List.map_append, he]
    rw [if_neg (fun h => by have := key _ _ _ h (by decide); revert this; decide), if_pos (self ..)]
  · rintro stem ext rfl he
    simp only [exportFormat, Option.getD_none, List.map_append, he]
    rw [if_neg (fun h => by have := key _ _ _ h (by decide); revert this; decide)]
    split
    · rename_i h
      simp only [endsWith] at h
      rw [List.isSuffixOf_iff_suffix] at h
      have h' := List.suffix_append (stem.map Char.toLower) c!".png"
      have := List.suffix_of_suffix_length_le h' h (by decide)
      revert this
      decide
    · rw [if_pos (self ..)]

/-- **C112 does not hold in full.** With any other extension the `export` command writes a PDF file without an error, although
the file is called, for example, `deck.md` or `deck.htm`. -/
theorem C112_export_violated (w : World) (input : Str) (d : Pres) (hl : w.load input = some d) (hw : ∀ p, w.canWrite .pdf p = true) :
    ∀ path ∈ [c!"deck.md", c!"deck.htm", c!"deck.jpg", c!"deck"], (exportCommand w input path none).written = [(path, .pdf, d)] ∧
      Result.Good (exportCommand w input path none) := by
  intro path hp
  have e : exportFormat none path = .pdf := by
    simp only [List.mem_cons, List.not_mem_nil, or_false] at hp
    rcases hp with rfl | rfl | rfl | rfl <;> decide
  unfold exportCommand
  rw [hl]
  simp only [e, exportAs, hw, if_true]
  exact ⟨trivial, _, rfl⟩

/-- **C112, names.** The output of `md2ppt` and `html2ppt` is next to the input, with the extension replaced. -/
theorem C112_default_output {dir name ext : Str} (hn : name ≠ []) (hs : '/' ∉ name ++ '.' :: ext) (he : '.' ∉ ext) (hd : dir ≠ []) :
    defaultOutput (name ++ '.' :: ext) = name ++ c!".pptx" ∧
    defaultOutput (dir ++ '/' :: (name ++ '.' :: ext)) = dir ++ '/' :: (name ++ c!".pptx") := by
  have hstem : fileStem (name ++ '.' :: ext) = name := by
    unfold fileStem
    rw [rsplitOnceChar?_append he]
    simp [hn]
  have hnone : ∀ s : Str, '/' ∉ s → rsplitOnceChar? '/' s = none := by
    intro s h
    induction s with
    | nil => rfl
    | cons c s ih =>
      simp only [List.mem_cons, not_or] at h
      rw [rsplitOnceChar?, ih h.2]
      exact if_neg fun e => h.1 e.symm
  refine ⟨?_, ?_⟩
  · unfold defaultOutput
    rw [hnone _ hs]
    simp only [hstem]
  · unfold defaultOutput
    rw [rsplitOnceChar?_append hs]
    simp [hd, hstem]

/-- **C112 does not hold in full.** A file with errors is not answered with an error by the validation tool, and a file for
which there are warnings only is said to have no issues. -/
theorem C112_validate_violated (errors warnings : List Str) :
    (∃ t, validateTool errors warnings = .ok t) ∧ validateTool [] warnings = .ok c!"Validation passed. No issues found." := by
  refine ⟨?_, rfl⟩
  unfold validateTool
  split <;> exact ⟨_, rfl⟩

example : ∃ w : World, Result.Good (merge w [c!"a", c!"b"] c!"c") ∧ Result.Good (create w c!"T" c!"c" [⟨c!"A", [c!"x"], none⟩]) :=
  ⟨⟨fun _ => some ⟨c!"T", [{ text := SlideText.new c!"A" }]⟩, fun _ _ => true⟩, ⟨_, rfl⟩, ⟨_, rfl⟩⟩

end PptRs.Props
